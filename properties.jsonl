{"id": "C01", "title": "Knock-protocol messages survive the wire", "statement": "Every protocol message (any operation, user, resource, salt and auth field) is encoded into exactly 56 bytes laid out as PROTOCOL.md says, and decoding those bytes gives back the same message.", "quantifier": "all operations, all 32-bit user and resource ids, all 8-byte salts, all 32-byte auth fields", "why_tests_cant": "The message space has more than 2^380 elements; a swapped offset or a byte-order slip can be invisible on the sampled values.", "anchors": ["letmein-proto/src/lib.rs: Message::msg_serialize, Message::try_msg_deserialize, MSG_SIZE, MSG_OFFS_*", "doc/PROTOCOL.md"]}
{"id": "C02", "title": "Knock-protocol decoder accepts exactly the well-formed messages", "statement": "A byte string is accepted by the decoder if and only if it is 56 bytes long, starts with the big-endian magic 0x3B1BB719 and carries an operation number 0..4; an accepted string re-encodes to exactly itself (no two byte strings denote the same message), and no input makes the decoder panic.", "quantifier": "all byte strings of every length", "why_tests_cant": "The set of rejected inputs is infinite; sampled malformed packets cannot show that nothing else is accepted.", "anchors": ["letmein-proto/src/lib.rs: Message::try_msg_deserialize, Operation::try_from"]}
{"id": "C03", "title": "The authenticated data determines every protected field", "statement": "Two authenticated texts are equal only if operation, user, resource, salt and challenge are all equal. So, for a collision-free MAC, a tag made for one message (say a Knock, or a Response to another challenge) never verifies for a different message.", "quantifier": "all pairs of messages, all pairs of 32-byte challenges, all keys", "why_tests_cant": "Injectivity is a statement about all pairs of inputs.", "anchors": ["letmein-proto/src/lib.rs: Message::authenticate, authenticate_no_challenge, check_auth_ok, check_auth_ok_no_challenge"]}
{"id": "C04", "title": "Generated tags verify; altered messages do not", "statement": "A tag generated with a key for a Knock or for a Response to a challenge verifies with that key and that challenge; with a collision-free MAC, verification fails after changing key, user, resource, salt or challenge to any other value.", "quantifier": "all keys, messages, challenges and all modifications of them", "why_tests_cant": "All modifications of all messages cannot be enumerated.", "anchors": ["letmein-proto/src/lib.rs: Message::generate_auth, generate_auth_no_challenge, generate_challenge, check_auth_ok, check_auth_ok_no_challenge"]}
{"id": "C05", "title": "TCP transport delivers messages whole under any fragmentation", "statement": "However the kernel splits reads and writes into pieces and interleaves would-block results, a sender that writes messages one after another and a receiver that reads them one after another transfer exactly the same sequence of messages; a receive never consumes bytes of the following message; a connection closed before the message is complete yields 'disconnected', never a truncated message.", "quantifier": "all message sequences and all schedules of partial reads, partial writes, would-block results, errors and end-of-stream", "why_tests_cant": "The number of fragmentations is exponential and loopback tests nearly always see one whole chunk.", "anchors": ["letmein-proto/src/socket.rs: NetSocket::send, NetSocket::recv (TCP)", "letmein-proto/src/lib.rs: Message::send, Message::recv"]}
{"id": "C06", "title": "Firewall-daemon messages survive the wire", "statement": "Every request or reply exchanged between letmeind and letmeinfwd is 24 bytes, decodes to itself, and the address and port seen by letmeinfwd for an Open request are exactly those given by letmeind; the decoder accepts exactly the 24-byte strings with valid operation, port type and address type, and re-encoding an accepted string gives the same bytes.", "quantifier": "all operations, port types, ports, all IPv4 and IPv6 addresses; all byte strings", "why_tests_cant": "All addresses times ports cannot be enumerated.", "anchors": ["letmein-fwproto/src/lib.rs: FirewallMessage::msg_serialize, try_msg_deserialize, addr_to_octets, octets_to_addr, new_open"]}
{"id": "C07", "title": "No firewall request without complete authentication", "statement": "letmeind contacts letmeinfwd in a session only if, in that session, it received a Knock for a configured user with a MAC valid under that user's key, the named resource is configured, permits that user and is not the control port, then sent a Challenge carrying this session's random challenge, and then received a Response with the same user and resource whose MAC is valid under the same key for exactly that challenge.", "quantifier": "all configurations, all sequences of bytes/messages/errors/timeouts delivered by the peer, all random values, all firewall daemon behaviours", "why_tests_cant": "A test exercises a handful of peer behaviours; the claim is about every adversarial message sequence.", "anchors": ["letmeind/src/protocol.rs: Protocol::run, recv_msg"]}
{"id": "C08", "title": "The firewall request is exactly what the configuration grants", "statement": "A session sends at most one firewall request; it asks for the address the session's packets come from, for the port of the resource named in the Knock, with the protocol (TCP, UDP or both) configured for that resource, and never for the control port.", "quantifier": "all configurations, peers and executions of a session", "why_tests_cant": "Configuration space times peer behaviours is unbounded.", "anchors": ["letmeind/src/protocol.rs: Protocol::run", "letmeind/src/firewall_client.rs: FirewallClient::open_port"]}
{"id": "C09", "title": "Come-In is sent only after the firewall acknowledged", "statement": "The server sends Come-In only as the last message of a session and only if letmeinfwd answered Ack to this session's request; the session reports success exactly when Come-In was sent without error.", "quantifier": "all executions of a session", "why_tests_cant": "Needs every failure point of the session (connect error, lost reply, Nack, timeouts).", "anchors": ["letmeind/src/protocol.rs: Protocol::run", "letmeind/src/firewall_client.rs: FirewallClient::open_port"]}
{"id": "C10", "title": "Stealth: error policy decides who can get any answer", "statement": "With control-error-policy basic-auth or full-auth the server sends no byte at all to a peer whose first message is not a Knock with a valid MAC of a configured user; with full-auth Go-Away is sent only after a valid Response; with always every rejected message (not timeouts or undecodable data) is answered by exactly one Go-Away and nothing follows it.", "quantifier": "all policies, configurations and executions of a session", "why_tests_cant": "Stealth is the absence of output over every possible probe.", "anchors": ["letmeind/src/protocol.rs: Protocol::send_go_away, recv_msg, run", "letmein-conf/src/lib.rs: ErrorPolicy"]}
{"id": "C11", "title": "Reply messages carry the ids of the Knock", "statement": "PROTOCOL.md: user and resource of every message the server sends are the values used in the Knock.", "quantifier": "all executions of a session", "why_tests_cant": "Every execution, including those where the first message is not a Knock.", "anchors": ["letmeind/src/protocol.rs: Protocol::send_go_away, run", "doc/PROTOCOL.md"]}
{"id": "C12", "title": "No peer can make the server session panic", "statement": "With any configuration produced by the configuration loader, no sequence of peer messages, errors and firewall replies makes the session code reach an assertion failure or unreachable!().", "quantifier": "all loadable configurations, all executions", "why_tests_cant": "A reachable panic with panic=abort is a remote denial of service; tests only try the foreseen inputs.", "anchors": ["letmeind/src/protocol.rs: Protocol::run", "letmein-proto/src/lib.rs: check_auth_ok, check_auth_ok_no_challenge, generate_challenge", "letmein-conf/src/lib.rs: get_resources"]}
{"id": "C13", "title": "The client reports success only after Come-In", "statement": "The knock client reports success only if it sent Knock, received a Challenge, sent the Response computed from that Challenge with its own user's key, and then received Come-In; it sends the Response only after a Challenge and sends nothing else; on Go-Away, disconnect, wrong operation or error it reports failure.", "quantifier": "all server behaviours, all keys, ids and random values", "why_tests_cant": "The server is adversarial from the client's viewpoint.", "anchors": ["letmein/src/command/knock.rs: knock_sequence", "letmein/src/client.rs: Client::recv_specific_msg, send_msg"]}
{"id": "C14", "title": "An honest client and an honest server always get to Come-In", "statement": "If client and server share a key for the user, the resource is configured, allows the user and is not the control port, the network delivers the messages and letmeinfwd acknowledges, then the session ends with Come-In on both sides and one firewall request, whatever the key, ids, random values and MAC function.", "quantifier": "all configurations satisfying the premises, all keys, salts, challenges and MAC functions", "why_tests_cant": "Must hold for all keys and ids.", "anchors": ["letmein/src/command/knock.rs: knock_sequence", "letmeind/src/protocol.rs: Protocol::run"]}
{"id": "C15", "title": "Replay and forgery resistance against an active network attacker", "statement": "An attacker who controls the network (reads, drops, replays, reorders, injects and computes MACs under keys it knows) but does not know a user's key cannot get any server session to request a firewall opening for that user and resource, unless a client holding the key produced a Response for exactly this session's challenge, user and resource; each such Response can serve at most one server session.", "quantifier": "all interleavings of any number of client and server sessions and attacker actions, all attacker strategies", "why_tests_cant": "Requires quantifying over all attacker strategies and unbounded numbers of sessions.", "anchors": ["letmeind/src/protocol.rs: Protocol::run", "letmein/src/command/knock.rs: knock_sequence", "letmein-proto/src/lib.rs: Message::authenticate"]}
{"id": "C16", "title": "The opening is bound to the key holder's own address", "statement": "A firewall opening is requested only for an address from which a holder of the user's key itself is communicating.", "quantifier": "all interleavings of client, server and attacker actions", "why_tests_cant": "Requires quantifying over attacker strategies such as relaying.", "anchors": ["letmein-proto/src/lib.rs: Message::authenticate", "letmeind/src/protocol.rs: Protocol::run"]}
{"id": "C17", "title": "letmeinfwd ignores requests outside its configuration", "statement": "A request received by letmeinfwd changes the firewall only if it is an Open for an address that is not the all-zeros or all-ones address, for a port that is the port of a configured resource and not the control port; every other message leaves firewall and leases unchanged and is never answered with Ack.", "quantifier": "all byte strings received on the socket, all configurations, all daemon states", "why_tests_cant": "All request contents and states.", "anchors": ["letmeinfwd/src/server.rs: FirewallConnection::handle_message, addr_check"]}
{"id": "C18", "title": "letmeinfwd opens only the configured transport protocol", "statement": "A request makes letmeinfwd open a port only for the transport protocols (TCP/UDP) configured for the resource with that port.", "quantifier": "all messages, configurations and states", "why_tests_cant": "All combinations of configured and requested protocol.", "anchors": ["letmeinfwd/src/server.rs: FirewallConnection::handle_message"]}
{"id": "C19", "title": "The firewall chain always equals control port plus live leases", "statement": "At every point between two operations of a running letmeinfwd, a packet is accepted by the letmein chain if and only if it goes to an enabled control port or matches (source address, protocol, port) a lease that was opened and not yet removed; this holds across every history of opens, refreshes, maintenance runs and firewall command failures.", "quantifier": "all operation histories, all clock values, all failures of the nft commands, all packets", "why_tests_cant": "Histories are unbounded and failures can hit any command.", "anchors": ["letmeinfwd/src/firewall/nftables.rs: NftFirewall (new, open_port, maintain, full_rebuild, add_lease, remove_leases)"]}
{"id": "C20", "title": "An opened port closes again in bounded time", "statement": "If maintenance runs at least every period P and nft commands work, then at any time t a packet accepted because of a lease belongs to a client that successfully knocked no earlier than t minus the configured timeout minus P; and a lease is not removed by maintenance before its timeout since the last knock has elapsed.", "quantifier": "all histories and all timings", "why_tests_cant": "Real-time interleavings of knocks and maintenance are unbounded.", "anchors": ["letmeinfwd/src/firewall.rs: prune_all_lease_timeouts, Lease", "letmeinfwd/src/firewall/nftables.rs: maintain, open_port", "letmeinfwd/src/main.rs: FW_MAINTAIN_PERIOD"]}
{"id": "C21", "title": "Knocking again renews and never duplicates", "statement": "Opening a port that is already leased succeeds without touching the kernel, sets the expiry to now plus timeout, and leaves exactly the rules of one lease in the chain; later expiry removes them all.", "quantifier": "all histories", "why_tests_cant": "Duplicate rules would only show after particular histories of renewals and failures.", "anchors": ["letmeinfwd/src/firewall/nftables.rs: open_port, remove_leases"]}
{"id": "C22", "title": "Shutdown closes everything", "statement": "After an orderly shutdown of letmeinfwd whose nft command succeeds, the letmein chain is empty: neither control port nor any lease remains open, whatever happened before.", "quantifier": "all histories before the shutdown", "why_tests_cant": "All histories.", "anchors": ["letmeinfwd/src/firewall/nftables.rs: shutdown, full_rebuild", "letmeinfwd/src/main.rs: async_main"]}
{"id": "C23", "title": "letmeinfwd never touches foreign rules", "statement": "No operation of letmeinfwd adds, deletes or changes a rule outside the configured family/table/chain, whatever the kernel ruleset contains (including rules with the same comments or handles in other chains).", "quantifier": "all kernel rulesets, all operation histories", "why_tests_cant": "All foreign rulesets.", "anchors": ["letmeinfwd/src/firewall/nftables.rs: ListedRuleset::find_handle, gen_delete_lease_cmds, full_rebuild"]}
{"id": "C24", "title": "A lease opens the port for its source address only", "statement": "The rules generated for a lease accept a packet if and only if its source address is the lease address, its destination port the lease port and its protocol the lease protocol; an IPv4-mapped IPv6 lease address means the IPv4 address; an address the chain family cannot match is refused instead of producing an unrestricted rule.", "quantifier": "all addresses, ports, protocols, chain families and all packets", "why_tests_cant": "All packets times all leases.", "anchors": ["letmeinfwd/src/firewall/nftables.rs: statement_match_saddr, statement_match_dport, gen_add_lease_cmds"]}
{"id": "C25", "title": "Special addresses never get a lease", "statement": "No lease is ever created for the unspecified or the broadcast/all-ones address, in any representation of that address.", "quantifier": "all addresses", "why_tests_cant": "Representations such as IPv4-mapped IPv6 are easily missed.", "anchors": ["letmeinfwd/src/server.rs: addr_check"]}
{"id": "C26", "title": "Only letmeind's process can talk to letmeinfwd", "statement": "A connection to letmeinfwd's socket is served only if the peer's pid is known and equals the pid in letmeind's pid file and (outside test mode) its uid and gid are those of the letmeind account as found in /etc/passwd and /etc/group.", "quantifier": "all credentials, pid-file contents and account files", "why_tests_cant": "All combinations of missing or wrong credentials and file contents.", "anchors": ["letmeinfwd/src/server.rs: FirewallServer::accept, get_letmeind_pid", "letmeinfwd/src/uid_gid.rs: os_get_uid, os_get_gid"]}
{"id": "C27", "title": "UDP server memory stays bounded", "statement": "Whatever datagrams arrive, the UDP server never holds more than the configured maximum of connections and never more than four queued datagrams per connection.", "quantifier": "all datagram sequences from all sources interleaved with all server operations", "why_tests_cant": "Floods and interleavings are unbounded.", "anchors": ["letmein-proto/src/socket.rs: UdpDispatcherRx::try_recv, try_accept, try_recv_from, disconnect"]}
{"id": "C28", "title": "UDP datagrams reach only their own session, in order, at most once", "statement": "The datagrams a session of peer A receives are, in order, a subsequence of those peer A sent (cut to 56 bytes), each delivered at most once; a datagram of one peer is never delivered to another.", "quantifier": "all histories", "why_tests_cant": "All interleavings of peers.", "anchors": ["letmein-proto/src/socket.rs: UdpDispatcherRx"]}
{"id": "C29", "title": "UDP accept hands out each pending peer exactly once", "statement": "accept returns a peer only if it has an open not yet accepted connection, never the same connection twice, and every datagram creating a new connection makes that connection acceptable.", "quantifier": "all histories and all map iteration orders", "why_tests_cant": "All interleavings.", "anchors": ["letmein-proto/src/socket.rs: UdpDispatcherRx::try_accept"]}
{"id": "C30", "title": "No UDP traffic can crash the server", "statement": "No sequence of datagrams makes the UDP server reach an assertion failure or arithmetic underflow.", "quantifier": "all datagram sequences interleaved with accept, receive and disconnect", "why_tests_cant": "Needs a particular overflow history followed by a disconnect.", "anchors": ["letmein-proto/src/socket.rs: UdpDispatcherRx::try_recv, disconnect"]}
{"id": "C31", "title": "A bad datagram of one peer does not disturb another peer's session", "statement": "A receive operation of peer A's session never fails because of a datagram sent by another peer.", "quantifier": "all histories", "why_tests_cant": "Needs a particular interleaving of two peers.", "anchors": ["letmein-proto/src/socket.rs: UdpDispatcherRx::try_recv_from"]}
{"id": "C32", "title": "Datagrams of wrong size are rejected", "statement": "A datagram whose length is not 56 bytes is never delivered as a message.", "quantifier": "all datagram lengths and contents", "why_tests_cant": "Only oversized datagrams show the difference.", "anchors": ["letmein-proto/src/socket.rs: UdpDispatcherRx::try_recv"]}
{"id": "C33", "title": "Configuration loading is all-or-nothing", "statement": "If loading a configuration fails, the previously active configuration is unchanged; if it succeeds every setting comes from the new file (or its default), none from the old one.", "quantifier": "all old configurations, all file contents", "why_tests_cant": "All error positions in all files.", "anchors": ["letmein-conf/src/lib.rs: Config::load, load_ini"]}
{"id": "C34", "title": "A users restriction is never lost", "statement": "If a resource definition contains a users item then the loaded resource permits exactly the listed users (the list is not empty); a definition whose list cannot be read completely makes loading fail. Only definitions without users item permit everybody.", "quantifier": "all configuration texts", "why_tests_cant": "A parsing corner that turns a restricted resource into an unrestricted one would be a security hole in inputs nobody tried.", "anchors": ["letmein-conf/src/lib.rs: get_resources, Resource::contains_user", "letmein-conf/src/parse_items.rs: Map::from_str"]}
{"id": "C35", "title": "Loaded keys are exactly the configured 32 bytes and never trivial", "statement": "Every key of a loaded configuration comes from an entry of the KEYS section whose value is 64 hex digits encoding exactly these bytes, is neither all zeros nor all ones, and every entry of the section is loaded.", "quantifier": "all configuration texts", "why_tests_cant": "All texts.", "anchors": ["letmein-conf/src/lib.rs: get_keys", "letmein-conf/src/parse.rs: parse_hex, parse_hexdigit"]}
{"id": "C36", "title": "Port lookup is unambiguous", "statement": "In a loaded configuration no two resources share a port, so looking up the resource of a port does not depend on map iteration order and finds a resource if and only if one with that port (permitting the user, if given) exists.", "quantifier": "all configuration texts, all iteration orders", "why_tests_cant": "Map iteration order is random per process.", "anchors": ["letmein-conf/src/lib.rs: get_resources, Config::resource_id_by_port"]}
{"id": "C37", "title": "Loading does not depend on hash map order", "statement": "Whether a configuration loads, and which keys and resources it then has, does not depend on the iteration order of the section's hash map.", "quantifier": "all configuration texts, all permutations of the iteration order", "why_tests_cant": "Iteration order is random per process.", "anchors": ["letmein-conf/src/lib.rs: get_keys, get_resources", "letmein-conf/src/ini.rs: Ini::options_iter"]}
{"id": "C38", "title": "The control port is always reachable by some protocol, and the client uses exactly one", "statement": "Every loaded configuration enables TCP or UDP (or both) for the control port, and for every combination of command line options the client contacts the server by exactly one protocol (so the client constructor's assertions never fail).", "quantifier": "all configuration texts and command-line options", "why_tests_cant": "All option combinations with all texts.", "anchors": ["letmein-conf/src/lib.rs: get_port", "letmein/src/command/knock.rs: KnockServer::to_control_port", "letmein/src/client.rs: Client::new"]}
{"id": "C39", "title": "gen-key output is a valid configuration entry", "statement": "The line printed by gen-key, put under [KEYS], is loaded as exactly the printed user with exactly the generated key.", "quantifier": "all user ids, all keys the random generator can return", "why_tests_cant": "2^288 combinations.", "anchors": ["letmein/src/command/genkey.rs: run_genkey", "letmein-conf/src/ini.rs: Ini::parse_str", "letmein-conf/src/lib.rs: get_keys", "letmein-proto/src/lib.rs: secure_random"]}
{"id": "C40", "title": "Defining a key or resource twice is an error", "statement": "A configuration text in which the KEYS or RESOURCES section defines the same id twice does not load.", "quantifier": "all configuration texts", "why_tests_cant": "The two definitions may be spelled the same or differently.", "anchors": ["letmein-conf/src/ini.rs: Ini::parse_str", "letmein-conf/src/lib.rs: get_keys, get_resources"]}
{"id": "C41", "title": "A malformed configuration file is reported", "statement": "Loading a configuration file that exists but is malformed reports an error.", "quantifier": "all file contents, both variants (client, server)", "why_tests_cant": "All malformed files.", "anchors": ["letmein-conf/src/lib.rs: Config::load"]}
{"id": "C42", "title": "Identifiers print and parse consistently", "statement": "Printing a user or resource id and parsing the text gives the same id; parsing is case-insensitive, ignores surrounding white space and rejects every value above 0xFFFFFFFF.", "quantifier": "all 32-bit ids, all strings", "why_tests_cant": "All strings.", "anchors": ["letmein-proto/src/lib.rs: UserId, ResourceId (Display, FromStr)"]}
{"id": "C43", "title": "The connection limit is enforced", "statement": "The number of sessions being served at the same time never exceeds --num-connections.", "quantifier": "all arrival and completion orders of connections", "why_tests_cant": "Needs more simultaneous connections than the limit with slow peers.", "anchors": ["letmeind/src/main.rs: async_main (accept loop)", "letmeinfwd/src/main.rs: async_main (accept loop)"]}
{"id": "C44", "title": "Name resolution honours address family and DNS policy", "statement": "The resolver returns only addresses of the requested family; a literal address is used as is without any query; unencrypted DNS, DoT, DoH, the system resolver and each DNS service are used only if enabled, in the documented order.", "quantifier": "all hosts, option combinations and resolver answers", "why_tests_cant": "All answer combinations.", "anchors": ["letmein/src/resolver.rs: resolve, get_first_result, is_ipv4_addr, is_ipv6_addr", "letmein/src/main.rs: parse_dns, parse_dns_crypt"]}
{"id": "C45", "title": "Which addresses are knocked and when knocking succeeds", "statement": "With -4/-6 only that family is knocked; with neither option a host name is knocked on both families and the command succeeds iff at least one succeeds; with both options both must succeed; a literal address is knocked in its own family only.", "quantifier": "all option combinations and all outcomes of the individual knocks", "why_tests_cant": "Combinations of failures.", "anchors": ["letmein/src/command/knock.rs: run_knock, AddrMode"]}
{"id": "C46", "title": "The server listens on exactly the configured protocols", "statement": "After start-up the server serves a protocol if and only if it is configured for the control port.", "quantifier": "all configurations and all sets of sockets passed by systemd", "why_tests_cant": "All socket sets.", "anchors": ["letmeind/src/server.rs: Server::new", "letmein-systemd/src/lib.rs: SystemdSocket::get_all"]}
{"id": "C47", "title": "Seccomp filters allow the union of what is listed", "statement": "A system call is permitted by a compiled filter if and only if some entry of the allow list permits it; in particular the filter of letmeind never permits execve, open or kill-like calls for any arguments.", "quantifier": "all allow lists, all system calls and arguments", "why_tests_cant": "All argument values.", "anchors": ["letmein-seccomp/src/lib.rs: Filter::compile_for_arch", "letmeind/src/seccomp.rs", "letmeinfwd/src/seccomp.rs", "letmein/src/seccomp.rs"]}
{"id": "C48", "title": "Client success means the port is really open", "statement": "If client, letmeind and letmeinfwd run with consistent configurations and the client reports success over an unmodified connection, then a packet from the client's address to the requested resource's port and protocol is accepted by the chain at that moment.", "quantifier": "all configurations, states of letmeinfwd and executions", "why_tests_cant": "Composition of three programs over all states.", "anchors": ["letmein/src/command/knock.rs", "letmeind/src/protocol.rs", "letmeinfwd/src/server.rs", "letmeinfwd/src/firewall/nftables.rs"]}
{"id": "C49", "title": "letmeinfwd never runs into a failing assertion", "statement": "No sequence of requests, maintenance runs, nft failures, changes of the ruleset by other programs and termination makes letmeinfwd reach a failing assertion (shutdown flag, lease of the control port), and start-up does not panic for any configuration.", "quantifier": "all histories, configurations and rulesets", "why_tests_cant": "Needs orderings of concurrent events, failures and hostile rulesets.", "anchors": ["letmeinfwd/src/firewall/nftables.rs: shutdown, maintain, open_port", "letmeinfwd/src/firewall.rs: Lease::new", "letmeinfwd/src/main.rs: async_main"]}
{"id": "C50", "title": "Ending a session does not disturb another session", "statement": "The end of one UDP session never removes the connection of another running session; each running session has a connection of its own.", "quantifier": "all histories of datagrams, accepts, receives and session ends", "why_tests_cant": "Needs a queue overflow followed by a second session of the same peer.", "anchors": ["letmein-proto/src/socket.rs: UdpDispatcherRx::disconnect, UdpConnection::close"]}
{"id": "C51", "title": "A waiting UDP peer is always noticed", "statement": "Whenever a connection waits to be accepted, the accepting task has a pending wake-up.", "quantifier": "all histories and all wake-up orders", "why_tests_cant": "Depends on a particular interleaving of accept and receive rounds.", "anchors": ["letmein-proto/src/socket.rs: UdpDispatcher::accept, UdpDispatcherRx::try_recv, try_accept, recv_notify"]}
{"id": "C52", "title": "Finished UDP sessions leave nothing behind", "statement": "Every connection in the UDP server's table waits to be accepted or belongs to a session that has not ended.", "quantifier": "all histories", "why_tests_cant": "All interleavings.", "anchors": ["letmein-proto/src/socket.rs: UdpDispatcherRx::disconnect", "letmeind/src/server.rs: Connection::close"]}
{"id": "C53", "title": "Queued datagrams are always noticed", "statement": "Whenever a datagram waits in the queue of a running session, the receiving tasks have a pending wake-up.", "quantifier": "all histories and all wake-up orders", "why_tests_cant": "Depends on a particular interleaving of two sessions and a bad datagram.", "anchors": ["letmein-proto/src/socket.rs: UdpDispatcher::recv_from, UdpDispatcherRx::try_recv_from, recv_notify"]}
{"id": "C54", "title": "A loaded configuration is exactly what the file says", "statement": "If loading succeeds from a well-formed file then every setting has the value written in the file (in the documented syntax, the last assignment of an option counting) or its default; every file whose values are all valid is loaded; the file determines all settings.", "quantifier": "all texts, all previous configurations, all hash-map orders", "why_tests_cant": "All texts.", "anchors": ["letmein-conf/src/lib.rs: Config::load, load_ini, get_*", "letmein-conf/src/ini.rs: Ini::parse_str", "letmein-conf/src/parse.rs", "letmein-conf/src/parse_items.rs"]}
{"id": "C55", "title": "Unknown sections and options are reported", "statement": "A configuration file that contains a section or option the program does not know is rejected (a misspelled option such as Seccomp does not silently leave the default in place).", "quantifier": "all texts", "why_tests_cant": "Only known names appear in tests.", "anchors": ["letmein-conf/src/lib.rs: Config::load_ini", "letmein-conf/src/ini.rs: Ini::parse_str"]}
{"id": "C56", "title": "Peers cannot terminate letmeind", "statement": "No behaviour of network peers (any number of connections, any data, any timing) makes letmeind exit.", "quantifier": "all histories of connections and session ends", "why_tests_cant": "Needs exhaustion of file descriptors.", "anchors": ["letmeind/src/main.rs: async_main (accept loop)", "letmeind/src/server.rs: Server::accept"]}
{"id": "C57", "title": "SIGTERM ends letmeind orderly", "statement": "After SIGTERM letmeind exits with status success, in whatever state it is.", "quantifier": "all states", "why_tests_cant": "Needs a signal while a session is in progress.", "anchors": ["letmeind/src/main.rs: async_main", "letmeind/src/server.rs: Connection::drop"]}
{"id": "C58", "title": "A rejected local connection does not stop letmeinfwd", "statement": "A process that connects to letmeinfwd's socket and is not letmeind has no influence on the service: the daemon keeps running and ports stay as they are.", "quantifier": "all states, all credentials", "why_tests_cant": "Needs a foreign process that may open the socket.", "anchors": ["letmeinfwd/src/main.rs: async_main (accept loop)", "letmeinfwd/src/server.rs: FirewallServer::accept"]}
{"id": "C59", "title": "letmeinfwd leaves no rules behind", "statement": "When letmeinfwd is not running (any more), its chain holds none of its rules, provided nftables worked when it ended.", "quantifier": "all histories, including failing start-up", "why_tests_cant": "Needs failures in every phase.", "anchors": ["letmeinfwd/src/main.rs: async_main", "letmeinfwd/src/firewall/nftables.rs: shutdown"]}
{"id": "C60", "title": "Every open port was asked for by letmeind", "statement": "A packet that letmeinfwd's chain accepts goes to the control port, or it is covered by a request on a connection whose peer had letmeind's pid, uid and gid when it was accepted.", "quantifier": "all histories of connections, messages, maintenance, failures and signals", "why_tests_cant": "Composition of the accept loop, credential checks and rule handling over all histories.", "anchors": ["letmeinfwd/src/main.rs: async_main", "letmeinfwd/src/server.rs: FirewallServer::accept, FirewallConnection::handle_message", "letmeinfwd/src/firewall/nftables.rs"]}
{"id": "C61", "title": "letmeinfwd's socket is not open to others", "statement": "letmeinfwd listens only on a Unix socket from systemd or on one of its own that belongs to root and letmeind's group with mode 0660; if neither can be had it does not start.", "quantifier": "all environments", "why_tests_cant": "All outcomes of the calls.", "anchors": ["letmeinfwd/src/server.rs: FirewallServer::new"]}
{"id": "C62", "title": "The configured seccomp mode is in force", "statement": "If a program starts with seccomp mode kill (or log), every system call outside its allow list kills the process (or is logged); the command line option overrides the file.", "quantifier": "all configurations, platforms, system calls and arguments", "why_tests_cant": "All calls and arguments; platforms without support.", "anchors": ["letmein/src/seccomp.rs", "letmeind/src/seccomp.rs", "letmeinfwd/src/seccomp.rs: install_seccomp_rules", "letmein-seccomp/src/lib.rs: Filter::compile_for_arch"]}
{"id": "C63", "title": "Only key holders' addresses get in", "statement": "Whatever clients, attackers on the network, local processes and failures do: a packet accepted by letmeinfwd's chain goes to the control port, or comes from the address, and goes to the port and protocol, of a session of letmeind that asked for exactly this after a holder of the key of a permitted user had answered its challenge; and at a maintenance run no such request is older than the lease time.", "quantifier": "all histories of any number of clients, sessions, local connections, maintenance runs and failures", "why_tests_cant": "Composition of all three programs and an active attacker over all histories.", "anchors": ["letmeind/src/protocol.rs", "letmeind/src/firewall_client.rs", "letmeinfwd/src/main.rs: async_main", "letmeinfwd/src/server.rs", "letmeinfwd/src/firewall/nftables.rs"]}
{"id": "C64", "title": "The pid file names letmeind", "statement": "After letmeind's start-up letmeinfwd reads letmeind's pid from the pid file, whatever the file contained and in however many pieces it was written; while it is being written with one call, letmeinfwd reads the former content, nothing valid, or letmeind's pid.", "quantifier": "all former contents, pids, failures and ways the write is split", "why_tests_cant": "All former contents (longer files) and moments between the calls.", "anchors": ["letmeind/src/main.rs: make_pidfile", "letmeinfwd/src/server.rs: get_letmeind_pid"]}
{"id": "C65", "title": "The socket is never open to outsiders, not even during start-up", "statement": "At no moment between two system calls of letmeinfwd's start-up, whatever fails, can a process connect to the socket that letmeinfwd has bound and that is neither root's nor in the group letmeind; after a successful start-up the group can connect. Something other than a socket at its place is left alone.", "quantifier": "all initial directory contents and permissions, umasks, failures and moments", "why_tests_cant": "Moments between calls; failing calls; prepared directories.", "anchors": ["letmeinfwd/src/main.rs: make_run_subdir", "letmeinfwd/src/server.rs: FirewallServer::new", "letmeinfwd/src/main.rs: set_owner_mode"]}
{"id": "C66", "title": "What runs is completely set up", "statement": "When the tasks of letmeind or letmeinfwd start, the configuration file has been read without error and is in force, the sockets are the configured ones (for letmeinfwd: closed to outsiders), the pid file names the process, the configured system call filter is in force and nothing has been accepted before; the client touches the network only under the configured filter, only for a knock, and only with the user's key and a resource for the port from a well-formed file; it reports success only after a successful exchange over a connection it opened; gen-key prints one valid entry and touches nothing.", "quantifier": "all command lines, files, environments and failures", "why_tests_cant": "Order of the steps in main under every failure.", "anchors": ["letmein/src/main.rs: async_main, main", "letmeind/src/main.rs: async_main", "letmeinfwd/src/main.rs: async_main"]}
{"id": "C67", "title": "One request per connection", "statement": "letmeinfwd handles at most one message per accepted connection: the number of requests handled never exceeds the number of connections from letmeind, and what arrives on a connection after its first message has no effect.", "quantifier": "all histories of connections, messages, maintenance runs, failures and signals", "why_tests_cant": "Needs a peer that sends more than letmeind ever does, at every point of a history.", "anchors": ["letmeinfwd/src/main.rs: async_main (connection task)", "letmeinfwd/src/server.rs: FirewallConnection::handle_message"]}
{"id": "C68", "title": "Exchanges end in bounded time", "statement": "A session of letmeind and a run of the client end within a time that depends on the control timeout only, however the peer behaves.", "quantifier": "all peers, all timings", "why_tests_cant": "All timings; peers that stop at any point.", "anchors": ["letmeind/src/protocol.rs: recv_msg, send_msg", "letmein/src/command/knock.rs: recv_msg, send_msg", "letmein/src/client.rs: Client::new", "letmeind/src/firewall_client.rs"]}
{"id": "C69", "title": "The client knows whom it talks to", "statement": "A client that reports success was answered by letmeind, which sent a Come-In for this user and resource.", "quantifier": "all runs of any number of clients and sessions over an attacker's network", "why_tests_cant": "Needs an active attacker.", "anchors": ["letmein/src/command/knock.rs: KnockSeq::knock_sequence", "letmein/src/client.rs: recv_specific_msg"]}
{"id": "C70", "title": "Interference with the chain is repaired", "statement": "Whatever other programs do to letmein's own chain: after an acknowledged request the port is open, and the chain is right again after the removal of expired rules has failed because of the interference.", "quantifier": "all histories with arbitrary changes of the ruleset by others", "why_tests_cant": "Arbitrary interference at arbitrary moments.", "anchors": ["letmeinfwd/src/firewall/nftables.rs: open_port, maintain, nftables_remove_leases, nftables_full_rebuild"]}
{"id": "C71", "title": "What a peer without the key can find out", "statement": "What a peer that has not answered a challenge with a user's key can observe of a session depends on the configuration only through the error policy and through whether its own first message is the Knock of a user under that user's key and for a resource granted to that user.", "quantifier": "all configurations, all behaviours of the peer and of the surroundings, all MAC functions", "why_tests_cant": "A statement about pairs of runs under all pairs of configurations.", "anchors": ["letmeind/src/protocol.rs: Protocol::run"]}
{"id": "C72", "title": "A generated key works", "statement": "The line printed by gen-key, put below [KEYS] in the server's and the client's file, gives the user this key on both sides and changes nothing else; then every knock for a resource granted to the user succeeds and asks letmeinfwd for exactly the resource's port.", "quantifier": "all well-formed files, users, random keys, schedules and MAC functions", "why_tests_cant": "Composition of gen-key, both configuration parsers, the client and the session over all files and schedules.", "anchors": ["letmein/src/command/genkey.rs", "letmein-conf/src/lib.rs: Config::load", "letmein/src/command/knock.rs", "letmeind/src/protocol.rs"]}
{"id": "C73", "title": "An honest exchange succeeds whatever the pieces", "statement": "However the kernel cuts the bytes of the messages into pieces on a TCP connection, and however the pieces and the two programs are interleaved, an honest client and session always get to Come-In: no deadlock, no endless run, no decoding error, exactly one firewall request.", "quantifier": "all schedules, fragmentations, random values, configurations granting the resource and MAC functions", "why_tests_cant": "All interleavings of partial reads and writes with the two programs.", "anchors": ["letmein-proto/src/socket.rs: NetSocket::send, NetSocket::recv", "letmein-proto/src/lib.rs: Message::send, Message::recv", "letmein/src/command/knock.rs", "letmeind/src/protocol.rs"]}
{"id": "C74", "title": "An honest exchange over UDP succeeds on a busy server", "statement": "A holder of the key who may use a resource knocks over UDP at a server that has already served others over the same socket and goes on doing so. Sessions begin and end, datagrams of any sender come in, the kernel hands datagrams out in any order, and any task of the server may be the one that reads the client's datagram. As long as no receive queue overflows, the client's own session does not run into a bad datagram and the table has room when the client's first datagram is read, neither side panics, neither side ends with anything but success, the firewall daemon gets at most one request, for exactly the client's address and the resource, and before the client reports success it has got it. From every state of such a run the exchange can still be completed.", "quantifier": "for all configurations, users, resources, earlier histories of the server's dispatcher, all interleavings with other peers' datagrams and sessions", "why_tests_cant": "The interleavings of tasks, wake-ups, foreign datagrams and session ends are unbounded, and the reader of a datagram is chosen by the scheduler.", "anchors": ["letmein-proto/src/socket.rs:51-317", "letmeind/src/main.rs:160-190", "letmeind/src/protocol.rs", "letmein/src/client.rs"]}
{"id": "C75", "title": "Without traffic the UDP server sleeps", "statement": "The tasks of letmeind that share the UDP socket wake each other by notifications. As long as no datagram arrives, they do so only a bounded number of times: the accepting task is never woken more often than datagrams have been read, and a server without waiting datagrams falls asleep after at most one wake-up of each kind.", "quantifier": "for all limits on connections, all histories of the dispatcher, all numbers of sessions and all orders of wake-ups", "why_tests_cant": "Polling shows as processor load, not as a wrong answer, and depends on the scheduler and on rare histories such as an overflow of a queue.", "anchors": ["letmein-proto/src/socket.rs:80-317"]}
{"id": "C76", "title": "Starting up fails gracefully", "statement": "Whatever the options, the contents of the configuration file, the state of the run directory, the user database, the sockets passed by the service manager and the results of system calls are: the start-up of the client and of both daemons ends with an error or with the running program, never with a panic.", "quantifier": "for all options, configuration files, file systems, passwd and group files, service manager environments and outcomes of system calls", "why_tests_cant": "The inputs are arbitrary texts and arbitrary combinations of failing calls; tests start the programs in a few working environments.", "anchors": ["letmein/src/main.rs:73-316", "letmeind/src/main.rs:78-216", "letmeinfwd/src/main.rs:51-304", "letmeinfwd/src/uid_gid.rs", "letmein-systemd/src/lib.rs:90-182"]}
{"id": "C77", "title": "Ports close in time", "statement": "letmeinfwd's maintenance task looks for expired leases every five seconds; a late round does not delay the later ones. So a packet accepted at some time, other than to the control port, is covered by a request that was acknowledged no longer ago than the lease time and five seconds, plus the time the task was held up by others (scheduler, lock, run of nft).", "quantifier": "for all configurations, all histories of requests, failures of nft and expirations, all delays of the task", "why_tests_cant": "Needs hours of real time and control over the scheduler and over nft; tests shorten the lease time and look at one lease.", "anchors": ["letmeinfwd/src/main.rs:46-46", "letmeinfwd/src/main.rs:245-262", "letmeinfwd/src/firewall.rs", "letmeinfwd/src/firewall/nftables.rs:440-452"]}
{"id": "C78", "title": "The printed rule count is right", "statement": "Whenever letmeinfwd prints the total number of rules installed, that is the number of rules in its chain.", "quantifier": "for all configurations, histories of requests, expirations, failures of nft, and orders of the lease map", "why_tests_cant": "The output is for people; a wrong number is only seen by counting rules by hand after rare failures.", "anchors": ["letmeinfwd/src/firewall/nftables.rs:281-392", "letmeinfwd/src/firewall/nftables.rs:427-477"]}
{"id": "C79", "title": "An honest knock opens the port", "statement": "The user knows the key and is granted the resource, letmeinfwd is running and its nft works for this request, and messages are delivered: then client, letmeind and letmeinfwd together complete the knock in at most 18 steps, none of them waits for ever, client and server session succeed, and the firewall then lets the client's address in at the resource's port for all its protocols.", "quantifier": "for all configurations, keys, MAC functions, random values, schedules, histories of letmeinfwd before and during the knock (requests of others, failures of nft, maintenance, other programs)", "why_tests_cant": "The three programs interleave in too many ways, and letmeinfwd can be in any state; integration tests knock at a fresh daemon.", "anchors": ["letmein/src/command/knock.rs:77-127", "letmeind/src/protocol.rs:119-237", "letmeind/src/firewall_client.rs", "letmeinfwd/src/server.rs:76-144", "letmeinfwd/src/firewall/nftables.rs"]}
{"id": "C80", "title": "From the configuration files to the packets", "statement": "Both servers are started from their command lines and files. Whatever happens afterwards, a packet that the configured chain accepts goes to the configured control port, or was asked for by a session after a holder of a key in letmeind's file, for a user whom this file permits the resource, answered its challenge. Conversely, if the files of client and servers agree about key and resource and nothing interferes, the command `letmein knock` succeeds and the port is open for the client's address; with one file for both servers letmeinfwd never refuses a port that letmeind grants.", "quantifier": "for all files, command lines, environments in which start-up succeeds, orders of hash maps, histories, schedules and attackers", "why_tests_cant": "The chain from a line of text to the verdict on a packet passes through three programs and the firewall; every test covers a single file and a single knock.", "anchors": ["letmein/src/main.rs:241-316", "letmeind/src/main.rs:122-160", "letmeinfwd/src/main.rs:178-217", "letmein-conf/src/lib.rs", "letmein/src/command/knock.rs:159-241", "letmeind/src/protocol.rs:119-237", "letmeinfwd/src/server.rs:76-144"]}
{"id": "C81", "title": "Sockets from the service manager are taken for what they are", "statement": "A descriptor passed by systemd is used as TCP, UDP or Unix socket exactly if it is one (and bound to the configured port); all descriptors are taken in their order, and any other descriptor stops the start-up. With the shipped socket units both daemons get their sockets.", "quantifier": "for all numbers and kinds of passed descriptors: files, sockets of all families, types and protocols, closed descriptors, all names and permissions", "why_tests_cant": "Depends on what the kernel answers about descriptors that an administrator may have set up in any way; the tests do not run under systemd.", "anchors": ["letmein-systemd/src/lib.rs:31-178", "letmeind/src/server.rs:118-207", "letmeinfwd/src/server.rs:153-180", "letmeind/letmeind.socket", "letmeinfwd/letmeinfwd.socket"]}
{"id": "C82", "title": "Where the configuration is read from", "statement": "Without --config the client reads etc/letmein.conf and both daemons etc/letmeind.conf below the prefix set at build time (by default the root directory): the daemons always the same file, the client never theirs. So letmeinfwd accepts whatever letmeind grants.", "quantifier": "for all prefixes, options and file contents", "why_tests_cant": "The prefix is fixed when a program is built; tests are run with one.", "anchors": ["letmein-conf/src/lib.rs:34-44", "letmein-conf/src/lib.rs:483-508", "letmein/src/main.rs:127-136", "letmeind/src/main.rs:111-120", "letmeinfwd/src/main.rs:153-161"]}
{"id": "C83", "title": "Concurrent tasks of letmeinfwd act one after the other", "statement": "Connections, maintenance and shutdown of letmeinfwd wait for the lock around the firewall, run nft while holding it, and answer; meanwhile other connections are served up to the lock, time passes, and other programs change the ruleset. Whatever the scheduling and whatever fails, there is a history of undivided operations, in an order compatible with the order of messages and answers, that explains all answers, the firewall object and (at every moment, also in the middle of an operation) the ruleset. At no moment is a packet accepted that no connection answered with Ack, or having the lock, asked for. No assertion fails. Until the shutdown has the lock, every connection can still get its answer; the lock is held for at most three runs of nft.", "quantifier": "all schedulings of any number of connection tasks, the maintenance task, the main task and other programs, all failures of nft, all times", "why_tests_cant": "The interleavings with a slow or failing nft, and what other programs do meanwhile, cannot be enumerated or provoked.", "anchors": ["letmeinfwd/src/main.rs:215-304", "letmeinfwd/src/server.rs:76-144", "letmeinfwd/src/firewall/nftables.rs:332-476"]}
{"id": "C84", "title": "A refused request opens nothing", "statement": "Also when a run of nft takes effect and is reported as failed (killed after the kernel took the batch, output lost), a request that letmeinfwd answers with Nack leaves no port open: a packet is accepted only if it goes to the control port or is covered by a request that was answered with Ack or is being dealt with. In any case nothing is accepted that no connection asked for, and after a successful shutdown nothing is.", "quantifier": "all schedulings, all runs of nft that succeed, fail without effect, or fail after taking effect, all times", "why_tests_cant": "Failures after the effect cannot be provoked in tests, and the leftover rule shows only in the kernel's ruleset, possibly hours later.", "anchors": ["letmeinfwd/src/firewall/nftables.rs:332-343", "letmeinfwd/src/firewall/nftables.rs:395-424", "letmeinfwd/src/firewall/nftables.rs:459-476"]}
{"id": "C85", "title": "With the documented ruleset services are hidden from everyone who has not knocked", "statement": "With the input chain of doc/nftables.conf, a packet from another host that opens a new connection and that no static rule decides about is accepted if and only if it goes to an enabled control port or an unexpired grant covers it; otherwise it is rejected (TCP) or dropped (UDP). Packets of established connections are accepted whatever letmeinfwd does. letmeinfwd never makes a packet refused that would be accepted without it, and does not influence other protocols than TCP and UDP. What is accepted at a time was acknowledged no earlier than the lease time and the distance of maintenance before it.", "quantifier": "all histories of letmeinfwd, all static rules without jumps, all packets, connection states and interfaces", "why_tests_cant": "The verdict depends on the order of rules in two files and on the connection state; a test with some packets cannot show that nothing else passes.", "anchors": ["doc/nftables.conf:8-32", "letmeind/letmeind.conf:60-66", "letmeinfwd/src/firewall/nftables.rs:120-182", "letmeinfwd/src/firewall/nftables.rs:290-330"]}
{"id": "C86", "title": "After the ruleset has been reloaded letmeinfwd restores its rules", "statement": "When another program has emptied or changed letmeinfwd's chain (doc/nftables.conf begins with flush ruleset), letmeinfwd restores the rules of the control port and of all grants at the next maintenance.", "quantifier": "all changes by other programs at all times, all histories before and after, all maintenance runs", "why_tests_cant": "Whether the rules come back depends on whether some grant happens to expire whose rule is missing; a test in which one does, passes.", "anchors": ["doc/nftables.conf:6", "letmeinfwd/letmeinfwd.service:3", "letmeinfwd/src/firewall/nftables.rs:440-452", "letmeinfwd/src/firewall/nftables.rs:459-476", "README.md:84-92"]}
{"id": "C87", "title": "A tag that fits two texts is a SHA3-256 collision", "statement": "The tag of a message is HMAC-SHA3-256 (PROTOCOL.md) of operation, user, resource, salt and challenge. If two tags agree although the key or one of these fields differs, then SHA3-256 gives the same hash for two different byte strings that can be written down from the keys and messages. This also holds of the tags exchanged and checked in a run of the whole system. Different messages are padded to different sequences of whole blocks.", "quantifier": "all keys, messages, challenges, all runs of clients and servers on a network run by an attacker", "why_tests_cant": "No test can find a collision; that there is none of another kind is a statement about all pairs of texts and keys.", "anchors": ["letmein-proto/src/lib.rs:260-287", "letmein-proto/src/lib.rs:442-559", "doc/PROTOCOL.md:181-202"]}
{"id": "C88", "title": "Configured times are what the file says", "statement": "The times in the configuration (`timeout`, `control-timeout`) may be written with fraction and exponent. Accepted are exactly whole numbers of seconds below 2^32 (decimal or hexadecimal) and decimal numbers that are not above u32::MAX (by more than 2^-22 s) and not negative (by more than 2^-1075 s). The time is the nearest nanosecond of the nearest double (of two equally near ones the even one). It differs from the number by at most 239 ns; it is exact for whole seconds, and for whole nanoseconds below 2^23 s; a larger number is never read as a shorter time; an accepted negative number is read as zero.", "quantifier": "all texts, all configuration files", "why_tests_cant": "Rounding to a double and again to nanoseconds has exceptional cases that random numbers do not hit; the set of accepted texts is infinite.", "anchors": ["letmein-conf/src/parse.rs:40-48", "letmein-conf/src/parse.rs:76-86"]}
{"id": "C89", "title": "Address literals are read as the addresses they denote", "statement": "A host given to the knock command is taken as an address exactly if it is a literal of RFC 4291 (IPv4: four decimal numbers up to 255; IPv6: eight groups of up to four hexadecimal digits, at most one gap for one or more groups, the last 32 bits possibly in dotted form) without superfluous zeros in dotted numbers, and then as the address it denotes. No text denotes two addresses. Every address printed by the library is read back as itself. Name servers are asked exactly about hosts that are not literals, and knocking on a literal contacts that address only.", "quantifier": "every text; every address of both families; every behaviour of name servers and of the network", "why_tests_cant": "The set of texts is infinite and the parser tries two readings of the same characters at every group; tests try a few addresses.", "anchors": ["letmein/src/resolver.rs:73-81", "letmein/src/resolver.rs:106-125"]}
{"id": "C90", "title": "What nft is told is what letmeinfwd meant", "statement": "The JSON text handed to nft, read by the rules of RFC 8259 and libnftables-json(5), says exactly the commands of the batch, whatever characters the configured table and chain names contain; it is one line without control characters; different batches have different texts. Every command in it is about the configured chain. The text of a lease opens exactly the lease's ports for exactly its address; the text of a rebuild opens exactly the control port and the leases, and after shutdown nothing. The comments that identify rules fit into what the kernel keeps of a comment.", "quantifier": "every list of commands, every configuration (any strings as names), every set of leases, every packet", "why_tests_cant": "Escaping errors show only for names with unusual characters, and an injected command would be executed as root; tests use one ordinary configuration.", "anchors": ["letmeinfwd/src/firewall/nftables.rs:332-343", "letmeinfwd/src/firewall/nftables.rs:62-182", "letmeinfwd/src/firewall/nftables.rs:240-278", "letmeinfwd/src/firewall/nftables.rs:346-392"]}
{"id": "C91", "title": "letmeinfwd runs until there is a reason to stop", "statement": "Once started, letmeinfwd keeps running and accepting whatever messages arrive, whatever other programs do to the ruleset, and whatever additions, listings and deletions of rules fail. Only a signal, a failed accept, a connection from somebody other than letmeind, or a failed rebuild of the chain ends it; a signal, and a failed accept or failed maintenance once the main task hears of it, do end it.", "quantifier": "all histories of events after every successful start, all rulesets left by other programs at all times", "why_tests_cant": "A crash or silent end would need one particular order of failures out of infinitely many; a test runs a few.", "anchors": ["letmeinfwd/src/main.rs:208-303", "letmeinfwd/src/firewall/nftables.rs:429-476", "letmeinfwd/src/server.rs:209-255"]}
{"id": "C92", "title": "The daemons start when everything they need is there", "statement": "With a file that describes a configuration, a run directory without obstacles, sockets passed or bindable as configured, system calls that work, a limit within range, and for letmeinfwd also letmeind's account, a chain named in the configuration and an nft that works, letmeind and letmeinfwd start, with the configuration described.", "quantifier": "all configuration files, all states of the run directory, all platforms, all iteration orders, all ways in which the pid file is written in pieces, all sockets passed by systemd", "why_tests_cant": "Start-up depends on the product of all these; a test starts the daemon in one environment.", "anchors": ["letmeind/src/main.rs:122-160", "letmeinfwd/src/main.rs:178-217", "letmeind/src/server.rs:118-207", "letmeinfwd/src/server.rs:153-206"]}
{"id": "C93", "title": "The configurations that can be written down are exactly the valid ones", "statement": "For every configuration that makes sense (a protocol for the control port and for every resource, distinct resource ports, keys that are neither all zeros nor all ones, times that some text denotes, names without line feeds and outer blanks, defaults where the program has no such setting) there is a text that is loaded as this configuration, in every order of the hash maps; and whatever is loaded from any text is such a configuration.", "quantifier": "all configurations, all texts, all iteration orders, all paths", "why_tests_cant": "The existence of a text for every configuration, and the impossibility of any text for the others, cannot be sampled.", "anchors": ["letmein-conf/src/lib.rs:200-561", "letmein-conf/src/ini.rs:94-150", "letmein-conf/src/parse.rs:1-70", "letmein-conf/src/parse_items.rs:25-56"]}
{"id": "C94", "title": "Layout, order and blanks in a configuration file do not matter", "statement": "Two well-formed files with the same settings up to blanks around the values have the same outcome, whatever the order of sections, of lines and of the hash maps; and inserting or removing comments and empty lines, changing indentation or the kind of line ends never changes the outcome, even of malformed files.", "quantifier": "all pairs of texts related in this way, all configurations before, all iteration orders", "why_tests_cant": "A relation between two runs on unboundedly many pairs of files.", "anchors": ["letmein-conf/src/ini.rs:94-150", "letmein-conf/src/lib.rs:200-561", "letmein-conf/src/parse_items.rs:25-56"]}
{"id": "C95", "title": "The tags are HMAC-SHA3-256 as the standards define it", "statement": "The bits of every tag are the bits that FIPS 198-1 defines over the hash function of FIPS 202, which is stated bit by bit (state array, theta, rho, pi, chi, iota with the LFSR, multi-rate padding, sponge). The checks of Knock and Response succeed exactly for these tags.", "quantifier": "all keys, all texts of any length, all messages and challenges", "why_tests_cant": "A wrong rotation or constant would still give a deterministic function that client and server agree on, so that every test of the two with each other passes.", "anchors": ["letmein-proto/src/lib.rs:260-287", "letmein-proto/src/lib.rs:442-559", "doc/PROTOCOL.md:181-202"]}
{"id": "C96", "title": "letmeinfwd's exit status tells whether the rules are gone", "statement": "letmeinfwd exits with success exactly if it is stopped by SIGTERM and nft removes the rules; then its chain is empty and stays so. SIGINT, a failure of a task and a failure of nft at the end give a failure. It never aborts. In each case the chain is emptied if nft works at the end and left as it was otherwise.", "quantifier": "all configurations with which letmeinfwd starts, all histories of connections, messages, failures, maintenance and signals", "why_tests_cant": "The service manager acts on the status. That it is right after every combination of events cannot be enumerated.", "anchors": ["letmeinfwd/src/main.rs:262-303"]}
{"id": "C97", "title": "A signal to terminate lets letmeinfwd remove its rules at any time", "statement": "Whenever SIGTERM or SIGINT arrives, from the first instruction on, no rule of letmeinfwd is left if nft works.", "quantifier": "all configurations, all times of arrival, all histories", "why_tests_cant": "The window between writing the rules and registering the handlers is short; tests do not hit it.", "anchors": ["letmeinfwd/src/main.rs:178-217", "letmeinfwd/src/main.rs:262-303"]}
{"id": "C98", "title": "A host name that a name server knows is found", "statement": "If one of the name servers the user allows answers the lookup of a host name with an address of the wanted family, then resolving the name succeeds, with an address that one of them gave.", "quantifier": "all host names, options, families and answers of name servers", "why_tests_cant": "Tests do not have ten name servers that give different answers.", "anchors": ["letmein/src/resolver.rs:92-104", "letmein/src/resolver.rs:107-193"]}
{"id": "C99", "title": "The number of firewall rules is limited", "statement": "There is a limit on the number of rules in letmeinfwd's chain, whatever letmeind asks for.", "quantifier": "all configurations, all histories of requests, all sets of addresses", "why_tests_cant": "Nobody tests with as many addresses as an IPv6 network has.", "anchors": ["letmeinfwd/src/firewall/nftables.rs:459-476", "letmeinfwd/src/firewall.rs:109-134"]}
{"id": "C100", "title": "Nothing an earlier run of letmeinfwd has opened stays open", "statement": "However often letmeinfwd was started, killed or stopped before, with whatever configurations naming the same chain: while one runs (and none is started beside it), its chain accepts exactly the packets to its own control port and those its own answers allow. Every successful start closes everything else. Rules in a chain that no living run and no later configuration names are never removed.", "quantifier": "all rulesets in the beginning, all histories of starts, kills, requests, maintenance and failures of nft, all configurations", "why_tests_cant": "The state that survives a crash depends on the whole history before it.", "anchors": ["letmeinfwd/src/main.rs:178-217", "letmeinfwd/src/firewall/nftables.rs:281-316"]}
{"id": "C101", "title": "Another letmeinfwd started by mistake does not change what is open", "statement": "Starting letmeinfwd while one is running neither opens a port that none of them has granted nor closes one that is granted and not due.", "quantifier": "all histories of any number of letmeinfwd processes on one chain", "why_tests_cant": "Interleavings of several processes that share the kernel's ruleset and identify their rules by comments only.", "anchors": ["letmeinfwd/src/main.rs:105-114", "letmeinfwd/src/server.rs:177-191", "letmeinfwd/src/firewall/nftables.rs:200-240", "letmeinfwd/src/firewall/nftables.rs:281-316"]}
{"id": "C102", "title": "A running letmeind stays connected to letmeinfwd", "statement": "A letmeind that has completed its start and has not ended is served by letmeinfwd whenever it connects, whatever other starts of letmeind are attempted, successfully or not, and nobody else is served.", "quantifier": "all histories of starts of letmeind that succeed, fail or are killed after any system call, and of connections", "why_tests_cant": "Needs several starts that fail at each step, and connections at the moments in between.", "anchors": ["letmeind/src/main.rs:42-76", "letmeind/src/main.rs:122-150", "letmeinfwd/src/server.rs:31-42", "letmeinfwd/src/server.rs:209-255", "letmeinfwd/src/main.rs:237-240"]}
{"id": "C103", "title": "Only a running letmeind is served by letmeinfwd", "statement": "Every process served by letmeinfwd is a letmeind that has completed its start and has not ended.", "quantifier": "all histories of starts, kills after any system call, ends, starts of letmeinfwd and connections with any credentials", "why_tests_cant": "Needs pids that are used again and kills between the pieces of one write.", "anchors": ["letmeind/src/main.rs:66-76", "letmeind/src/main.rs:145-146", "letmeinfwd/src/server.rs:31-42", "letmeinfwd/src/server.rs:222-230"]}
{"id": "C104", "title": "Accepting ahead changes nothing", "statement": "The tasks that accept connections ahead of letmeind's accept loop change nothing: whatever sessions, end of the loop and end of the process are possible with them are possible when the loop accepts itself, and the other way round, with the same signals and ends of sessions. At most one TCP connection waits for the loop, and none is lost. SIGTERM ends letmeind with success exactly if no session is in progress, also when a connection waits.", "quantifier": "all histories of arrivals, failures of accept, choices of select!, ends of sessions and signals, all limits of file descriptors", "why_tests_cant": "Needs all interleavings of the two accept tasks, the loop and the main task.", "anchors": ["letmeind/src/server.rs:85-110", "letmeind/src/server.rs:194-225", "letmeind/src/main.rs:157-190"]}
{"id": "C105", "title": "Datagrams delivered twice do no harm", "statement": "Over UDP, where the network may deliver a datagram late, out of order or more than once, an exchange between a holder of the key who may use the resource and the server ends with success on both sides. A client that ends with success has been served by a session that has made exactly the one request to letmeinfwd that the configuration grants.", "quantifier": "all MAC functions, configurations, random values, schedules, losses, orders and multiplicities of delivery", "why_tests_cant": "Needs all orders and multiplicities in which a network can deliver datagrams to both sides.", "anchors": ["letmeind/src/protocol.rs:55-84", "letmeind/src/protocol.rs:119-237", "letmein/src/client.rs:77-110", "letmein-proto/src/socket.rs:274-299"]}
{"id": "C106", "title": "Installing keeps keys and programs safe", "statement": "After installing server or client, the configuration files with the keys can be read by root only (on the server also by the group letmeind), nobody but root can change programs, units, directories and configurations, and no run of an installer, complete or failed, changes the content of an existing configuration. While the server is installed, nobody gains access to its keys at any moment.", "quantifier": "all previous contents, owners and modes of the files, all failures of system calls, all users and groups", "why_tests_cant": "Needs all previous states of the file system and all points at which a script can fail or be observed.", "anchors": ["install-server.sh:22-86", "install-client.sh:14-44", "scripts/lib.sh:24-46"]}
{"id": "C107", "title": "Restarting letmeind puts an edited configuration into effect", "statement": "The server's configuration file is edited and letmeind is restarted, as described in README.md; letmeinfwd goes on running. Then a user whose key the new file has and whom it grants a resource succeeds in knocking, if nobody interferes.", "quantifier": "all pairs of files, all users and resources, all histories of letmeinfwd before and during the knock, all schedules and random values", "why_tests_cant": "Needs all pairs of configuration files, all histories of letmeinfwd and all schedules of three programs.", "anchors": ["README.md:78-90", "letmeind/letmeind.service", "letmeinfwd/letmeinfwd.service", "letmeinfwd/src/main.rs:186-190,277-279", "letmeinfwd/src/server.rs:81-128", "letmeind/src/protocol.rs:195-236"]}
{"id": "C108", "title": "letmeind over UDP is no amplifier", "statement": "At every moment, letmeind has sent to any address and port at most as many datagrams, and at most as many bytes, as it has received from exactly that address and port; each session has sent no more messages than it has received.", "quantifier": "all configurations, all connection limits, all interleavings of any number of sessions, all datagrams from all addresses, all answers of the random generator and letmeinfwd, all timeouts", "why_tests_cant": "The amplification factor is a bound over all interleavings of sessions that share one socket; a test sees a few exchanges.", "anchors": ["letmein-proto/src/socket.rs:80-317", "letmeind/src/main.rs:157-190", "letmeind/src/protocol.rs:55-237"]}
{"id": "C109", "title": "The UDP server opens ports only for peers that authenticated from their own address", "statement": "With any number of interleaved sessions on the shared socket, a session asks letmeinfwd only for the IP address of its own peer and only for a resource granted to the knocking user, and then two datagrams from exactly that address and port were a valid Knock and a valid Response to the challenge this session generated and sent there. No two requests share a datagram.", "quantifier": "all configurations, all connection limits, all interleavings of any number of sessions, all datagrams from all addresses, all answers of the random generator and letmeinfwd, all timeouts", "why_tests_cant": "A mixup between sessions on the shared socket depends on schedules and queue states that tests do not enumerate.", "anchors": ["letmein-proto/src/socket.rs:80-317", "letmeind/src/main.rs:157-190", "letmeind/src/protocol.rs:119-237"]}
{"id": "C110", "title": "Every message has a salt and every Challenge a token of its own", "statement": "PROTOCOL.md: the salt of every message is freshly drawn from the random generator and never reused; the AUTH field of a Challenge is a freshly drawn 32 byte value. So if the random generator never repeats itself, no two of all messages that servers and clients ever send have the same salt.", "quantifier": "all traces of sessions and of clients, any number of them, all configurations, keys and answers", "why_tests_cant": "Reuse across messages depends on the path taken through the session, and on many sessions at once.", "anchors": ["doc/PROTOCOL.md:54-66,117-127", "letmein-proto/src/lib.rs:115-133,232-241,331-334", "letmeind/src/protocol.rs:92-237", "letmein/src/command/knock.rs:77-127"]}
{"id": "C111", "title": "The communication stops at the first message that is not allowed", "statement": "PROTOCOL.md: all message flows other than Knock, Challenge, Response, Come-In, with the user and resource of the Knock in every message, result in an immediate stop of communication and authentication; at most one Go-Away may follow. This holds for the server and for the client.", "quantifier": "all traces of sessions and of clients, all configurations, keys, messages and answers", "why_tests_cant": "All orders of all messages with all contents.", "anchors": ["doc/PROTOCOL.md:68-96", "letmeind/src/protocol.rs:55-237", "letmein/src/client.rs:77-103", "letmein/src/command/knock.rs:54-127"]}
{"id": "C112", "title": "A key is used for its user's tags only", "statement": "A user's key has an effect on nothing but the tags computed and checked with it in exchanges of this user: what letmeind does in a session, visible to the peer, to letmeinfwd or in its outcome, is determined by the error policy, the tags that the knocking user's key gives, the entry of the requested resource as far as it concerns this user, and the control port's number. What the client does in an exchange is determined by the ids and the tags. letmeinfwd does not depend on keys at all, nor does the start of letmeind, nor a knock on keys of other users.", "quantifier": "all pairs of configurations and MAC functions that agree in what is named, all traces, all files, all environments, all histories of letmeinfwd", "why_tests_cant": "A non-interference property compares every pair of configurations over all executions; a test compares two runs.", "anchors": ["letmeind/src/protocol.rs:119-237", "letmein/src/command/knock.rs:77-241", "letmeinfwd/src/main.rs:178-303", "letmein-proto/src/lib.rs:260-327"]}
{"id": "C113", "title": "A fresh installation lets nobody in", "statement": "With the configuration files as shipped, nobody gets in. Both files are loaded; they contain no key and no resource. letmeinfwd's chain then accepts nothing but TCP to port 5800, whoever connects to it and whatever it is asked; letmeind never asks letmeinfwd for anything and sends nothing but Go-Away; the client sends nothing and a knock fails. The example keys are not accepted when they are put into effect, the example resources are, with the same meaning for client and server. In general, a packet that the chain accepts goes to the control port or to the port of a resource in the file, whoever connects to letmeinfwd.", "quantifier": "all iteration orders, all surroundings and options, all histories of letmeinfwd, all sessions", "why_tests_cant": "That nothing at all opens a port can only be observed over all histories; a test sees some requests refused.", "anchors": ["letmeind/letmeind.conf:1-105", "letmein/letmein.conf:1-73", "install-server.sh:33-44", "install-client.sh:25-36", "letmein-conf/src/lib.rs:262-281"]}
{"id": "C114", "title": "Access that was revoked ends in time", "statement": "A user or a resource is removed from the server's configuration file and letmeind is restarted, while letmeinfwd goes on running. As soon as the lease time and the period of the maintenance have passed since the last request of an earlier letmeind was handled, a packet that the chain accepts goes to the control port, or is covered by what the new file grants to a user whose key the new file has and a holder of this key has answered a challenge of the new letmeind. Before that, what was open stays open. If letmeinfwd is restarted, everything is closed at once.", "quantifier": "all files, all earlier letmeinds with all configurations, all histories, all behaviours of the network", "why_tests_cant": "Revocation is about everything a holder of a removed key could try over an unlimited time; a test tries some.", "anchors": ["README.md", "letmeind/src/main.rs:122-160", "letmeinfwd/src/main.rs:178-303", "letmeinfwd/src/firewall/nftables.rs:427-520"]}
{"id": "C115", "title": "What the programs print about a configuration does not tell the keys", "statement": "If letmein, letmeind or letmeinfwd cannot load its configuration, it prints a message and ends. The message does not depend on the keys: it is the same for two files that differ only in the keys, each with the same mistake if there is one (characters that are not ASCII, the number of characters, a character that is no digit, all zeros, all ones), and in lines that are not lines of an ini file at all, even if these contain a key. Something is printed exactly if the configuration is not loaded.", "quantifier": "all files, all orders of the iteration of the HashMaps, all texts about the other sections", "why_tests_cant": "That something is not told is a statement about all pairs of files; a test looks at the message for some file.", "anchors": ["letmein-conf/src/lib.rs:267-286", "letmein-conf/src/lib.rs:516-568", "letmein-conf/src/parse.rs:50-74", "letmein-conf/src/ini.rs:94-150", "letmeind/src/main.rs:128-129"]}
{"id": "C116", "title": "Restarting the units as documented leaves the control port open", "statement": "README.md: after a change of the configuration systemctl restart letmeind.service, after a change of the ruleset systemctl restart nftables.service. The former restarts letmeind and its socket only; the latter restarts everything: letmeind is stopped before letmeinfwd and started after it, each service after its socket. In the end letmeinfwd's chain accepts exactly the packets to the control port and what has been granted since.", "quantifier": "all orders that the unit files allow, all configurations, all states of letmeinfwd, all rulesets, all failures of starts", "why_tests_cant": "The order in which systemd stops and starts units that are not ordered depends on timing; a test sees one order.", "anchors": ["README.md:78-91", "letmeind/letmeind.service:1-6", "letmeind/letmeind.socket:1-3", "letmeinfwd/letmeinfwd.service:1-5", "letmeinfwd/letmeinfwd.socket:1-3", "doc/nftables.conf:6-14"]}
{"id": "C117", "title": "A knock that failed has opened nothing", "statement": "If the client reports a failure, in particular if the server has sent Go-Away, the knock has had no effect on letmeinfwd and the firewall.", "quantifier": "all executions of client, letmeind and letmeinfwd on a connection on which nothing is modified or invented, with all losses and failures, whatever else letmeinfwd does at the time", "why_tests_cant": "Needs failures between the acknowledgement of letmeinfwd and the client's receipt of the answer, at every point.", "anchors": ["letmeind/src/protocol.rs: Protocol::run", "letmeind/src/firewall_client.rs", "letmeinfwd/src/server.rs: FirewallConnection::handle_message", "letmein/src/command/knock.rs"]}
{"id": "C118", "title": "A service is reported as started exactly when it is up", "statement": "letmeind and letmeinfwd tell systemd that they are ready (Type=notify) exactly if their start-up succeeds; when letmeinfwd is reported ready, so that letmeind is started, its chain accepts exactly the control port.", "quantifier": "all command lines, files, rulesets, passed sockets, and outcomes of every system call during start-up", "why_tests_cant": "The unit tests call the notification once outside of systemd. That it comes before steps that may still fail, and that it is left out on one of the paths, shows only in the order of the steps of main on all paths.", "anchors": ["letmeind/src/server.rs:118-207", "letmeind/src/main.rs:122-160", "letmeinfwd/src/server.rs:153-206", "letmeinfwd/src/main.rs:178-217", "letmeind/letmeind.service", "letmeinfwd/letmeinfwd.service"]}
{"id": "C119", "title": "After install-server.sh or restart.sh letmein runs, now and after the next boot", "statement": "If install-server.sh or restart.sh comes to its end, the units of letmein are active, and they are active again after the next boot if they were to be started at boot before.", "quantifier": "all states of the units before, all failures of the commands whose exit status the scripts ignore", "why_tests_cant": "Needs the state of the units after every way through the scripts and after a boot; no test runs the scripts.", "anchors": ["install-server.sh", "restart.sh", "scripts/lib.sh:24-72", "letmeind/letmeind.service", "letmeind/letmeind.socket", "letmeinfwd/letmeinfwd.service", "letmeinfwd/letmeinfwd.socket"]}
{"id": "C120", "title": "Leaving an option out means its documented default", "statement": "A configuration file without an option for which doc/CONFIGURATION.md gives a default is loaded as the file with the default written in it. With a file that does not set one of the three options without default (family, table, chain-input), letmeinfwd does not get past its start.", "quantifier": "all configuration files, all documented defaults, both variants, all iteration orders of the hash maps", "why_tests_cant": "A test can compare single files; that the two files agree next to every other content is a statement about all files.", "anchors": ["letmein-conf/src/lib.rs:46-48,200-270,396-445", "doc/CONFIGURATION.md:33,52,83,116,136,266,278,290,302,317"]}
{"id": "C121", "title": "Nobody but root and letmeind can forge letmeind's pid file", "statement": "letmeinfwd serves the process whose pid is in letmeind's pid file. At no moment from letmeind's start on can a process that is neither root's nor letmeind's change that file or replace it, so letmeinfwd goes on reading letmeind's pid.", "quantifier": "all users and umasks, former contents of the run directory, failures, ways the write is split, and sequences of changes by other processes", "why_tests_cant": "The permissions between any two system calls and all later actions of other processes; tests run as one user in one directory.", "anchors": ["letmeind/src/main.rs:43-76", "letmeinfwd/src/server.rs:31-42", "letmeind/letmeind.service:12-19"]}
{"id": "C122", "title": "Only root and the user that create-user.sh makes can read the server's keys", "statement": "If create-user.sh comes to its end, there is one user letmeind with a group of its own in which nobody else is, and the other accounts are unchanged. After create-user.sh and the installation, of all users only root and letmeind can read the configuration file with the keys.", "quantifier": "all accounts before, choices of ids, failures of commands, former files", "why_tests_cant": "Needs all account files and the ids that the system chooses; no test runs the scripts.", "anchors": ["create-user.sh", "install-server.sh:33-44", "doc/INSTALL.md:65-82"]}
{"id": "C123", "title": "The port named on the command line is the port that opens", "statement": "If `letmein knock HOST PORT` succeeds then PORT of HOST is open for the client's address, with the protocols of the resource.", "quantifier": "all configurations of client, letmeind and letmeinfwd, all keys, histories of letmeinfwd, schedules and losses", "why_tests_cant": "Needs three configurations which may differ in any way and all interleavings; the integration test uses one file for all programs.", "anchors": ["letmein/src/command/knock.rs:160-241", "letmein-conf/src/lib.rs:606-623", "letmeind/src/protocol.rs:147-175"]}
{"id": "C124", "title": "Every resource of a configuration that loads can be opened by the users it is for", "statement": "If letmeind has loaded a configuration file, each user that a resource of the file is for can open it, given the right key and a working network.", "quantifier": "all configuration files, users, resources, hash map orders, MAC functions, addresses and keys of clients", "why_tests_cant": "Quantifies over all files and, where a resource cannot be opened, over all clients.", "anchors": ["letmein-conf/src/lib.rs:267-387,528-568", "letmeind/src/protocol.rs:126-180"]}
{"id": "C125", "title": "The usage example of README.md opens the ssh port, to holders of the generated key only", "statement": "A key is generated for user 00000000, its line and the resource 00000022 = port: 22 are put into the installed files of server and client, and the services are restarted. Whichever key was generated, the files load; letmein knock -u 00000000 HOST 22 without interference ends in success and opens TCP port 22 for the client's address; port 22 is closed for every address for which no holder of the key has answered a challenge. Before letmeinfwd has been restarted, the knock fails.", "quantifier": "all generated keys, line ends, hash map orders, command lines and surroundings of the three programs, MAC functions, client addresses, interleavings, histories", "why_tests_cant": "Tests never run the three programs together from the shipped files, let alone for every key and every history.", "anchors": ["README.md:40-105", "letmeind/letmeind.conf:1-104", "letmein/letmein.conf:1-72", "letmein/src/command/genkey.rs:11-23"]}
{"id": "C126", "title": "Uninstalling as documented removes letmein completely", "statement": "Server and client have been installed with the install scripts, in any order and any number of times, and the files below /opt/letmein have been edited in any way. After the commands of doc/INSTALL.md have been run without failure, every file of the host is as it was before the first installation, no unit of letmein is active, enabled or started at the next boot, and the accounts are as before create-user.sh was run.", "quantifier": "all hosts, all sequences of installations with all outcomes of their system calls, all edits below /opt/letmein, all unit states", "why_tests_cant": "Tests never install or uninstall the software; the claim covers all hosts and all prior installation histories.", "anchors": ["doc/INSTALL.md:109-132", "install-server.sh:1-113", "install-client.sh:1-68", "create-user.sh:1-59"]}
{"id": "C127", "title": "Other implementations of the documented protocol work together with letmein", "statement": "A program that follows doc/PROTOCOL.md, with HMAC-SHA3-256 as the standards define it, and that has the key of a user to whom a resource is granted, gets the port opened by letmeind if nothing fails on letmeind's side. The client letmein, talking to any server that follows the document and opens the port, reports success if nothing fails on the client's side. In both cases the bytes exchanged are those of the documented table; whenever a session of letmeind ends with success, they are. After a GOAWAY the client never reports success.", "quantifier": "all configurations, keys, users, resources, addresses, salts and tokens, all behaviours of the other side that the document allows, all traces", "why_tests_cant": "Tests run letmein against letmein only; a deviation from the document that both sides share would not be noticed.", "anchors": ["doc/PROTOCOL.md:1-213", "letmeind/src/protocol.rs:119-237", "letmein/src/command/knock.rs:77-127", "letmein-proto/src/lib.rs:190-470"]}
{"id": "C128", "title": "letmeinfwd runs the configured nft only, with fixed command lines, and only when it has to", "statement": "Every program that letmeinfwd starts, in its start and in any history, is the one of the option `exe`, with one of three fixed command lines; only what `nft -j -f -` reads depends on what happened, and that is about the configured chain. If `exe` is an absolute path, then that file and no other is run, whatever is in $PATH; a name without a slash is looked for in $PATH. The paths that can be configured are exactly the texts on one line without white space around. A request runs nft only if it asks for a configured port that is not open for the address yet, then once and with the rules asked for; maintenance only if a lease has expired. In all, at most three runs, and four more for each such request. Without such a run letmeinfwd does not change the ruleset.", "quantifier": "all configurations, rulesets, histories of requests, maintenance, termination and interference, all results of nft, all files and values of $PATH", "why_tests_cant": "Tests run a stub of nft found in $PATH; that no input reaches a command line, and that the number of root processes cannot be driven up by repeated knocks, concerns all histories.", "anchors": ["letmeinfwd/src/firewall/nftables.rs:187-199", "letmeinfwd/src/firewall/nftables.rs:290-477", "letmein-conf/src/lib.rs:396-401", "doc/CONFIGURATION.md:245-266"]}
{"id": "C129", "title": "The daemons can be started at the same time", "statement": "Processes that create their run directories at the same time, with parents in common and any of them missing, do not make each other fail, however their system calls are interleaved with each other and with what others do, as long as nobody removes anything, puts something else than a directory on the way, or forbids to create what is missing. Each is through after at most three system calls for each component of its path, and three more; its directory is there then. Even with obstacles, success means that the directory is there. Nothing else is created and nothing is changed. On its own a process succeeds exactly if nothing but directories is on the way; otherwise it leaves everything as it was.", "quantifier": "all numbers of processes, paths, file systems and permissions, all interleavings of system calls, all changes by others as stated", "why_tests_cant": "Whether one daemon's mkdir falls between the other's check and its mkdir is a matter of microseconds; a test meets such an interleaving by chance only.", "anchors": ["letmeind/src/main.rs:42-64", "letmeinfwd/src/main.rs:51-82", "tests/run-tests.sh:61-77"]}
{"id": "C130", "title": "The project's own tests pass, up to a race in the script", "statement": "The gen-key test and the two knock tests of tests/run-tests.sh pass. Both configuration files load for the servers and the client, and say exactly what the script relies on: control port 5810 with the tested protocol only, one key, one resource. Both daemons start with the script's command lines in an empty run directory, and letmeind listens on exactly the tested protocol. The stub in place of nft accepts exactly the runs that apply a ruleset and fails every listing; nevertheless letmeinfwd keeps running with it until it is stopped, however many leases expire, and grants every admissible request. Each of the script's knock commands ends in success when its exchange is undisturbed, and such an exchange exists. What the script cuts out of the line printed by gen-key are the user and the key, whichever key was generated. The script's check of the pid files succeeds once they have been written.", "quantifier": "both configuration files, all iteration orders, process ids, surroundings in which nothing is in the way, request histories and times, generated keys, users, MAC functions, client addresses, selections of the address family", "why_tests_cant": "Running the script shows one schedule on one machine; that it passes for all schedules, or on which one it fails, cannot be seen by running it.", "anchors": ["tests/run-tests.sh:40-128", "tests/conf/tcp.conf:1-19", "tests/conf/udp.conf:1-19", "tests/stubs/nft/src/bin/nft.rs:16-26"]}
{"id": "C131", "title": "Knocks at the same time do not hinder each other", "statement": "Any number of programs talk to letmeind at the same time, each in a session of its own, and letmeinfwd serves all of them. An honest client that is entitled to what it asks for takes at most 18 steps together with its session, however it is interleaved with the others and whatever programs they run. As long as it has not succeeded it can take a step, whatever the others do or do not do. Then client and session have ended in success, and the port is open for the client's address, unless it took longer than leases last. If all are honest, each run can be completed by steps of theirs alone, with at most 18 steps for each in total, and all have succeeded then.", "quantifier": "all numbers of clients, all configurations and keys, all states that letmeinfwd can reach, all interleavings, all programs that the others run", "why_tests_cant": "The number of interleavings of many clients is beyond any test, and the others may run any program.", "anchors": ["letmeind/src/main.rs:153-190", "letmeind/src/protocol.rs:114-189", "letmeinfwd/src/main.rs:216-245", "letmeinfwd/src/server.rs:76-144", "letmein/src/command/knock.rs:77-140"]}
{"id": "C132", "title": "Time limits do not strike while everybody is prompt", "statement": "An honest knock, with time and the control timeouts of client and server. While somebody can take a step of the knock, at most d passes from one step to the next. If the client's control timeout is longer than 8 d and the server's longer than 4 d, then no time limit strikes, the knock is complete after at most 18 steps and no later than 18 d after its start, as long as it isn't complete somebody can take a step, and once it is, client and session have succeeded and the port is open as long as the lease time has not passed since the start. The bounds are exact: with a client timeout of 8 d or less there is a prompt run in which the client gives up although the session has succeeded; with a server timeout of 4 d or less there is one in which the session gives up.", "quantifier": "all configurations, keys, addresses and time limits, all states that letmeinfwd can reach, all timings and interleavings, also with whatever else letmeinfwd does meanwhile", "why_tests_cant": "Which wait is the longest, and how it relates to the time limits, depends on all orders of the steps of three programs; a test sees one timing.", "anchors": ["letmein/src/client.rs:77-110", "letmeind/src/protocol.rs:55-91", "letmein/src/command/knock.rs:77-140", "letmeind/src/main.rs:168-179", "letmeinfwd/src/server.rs:76-144", "letmeinfwd/src/firewall.rs:72-90"]}
{"id": "C133", "title": "Who knocks again in time keeps the port open without a gap", "statement": "letmeinfwd has acknowledged a request, and each later maintenance comes less than the lease time after the latest request for the same address and port selection. Then every such request is acknowledged, even if nft fails at that time, and the packets it is about are accepted at every point since the first request, whatever else happens: other requests, expiry of others' leases, failures of nft that letmeinfwd gets over, other programs' work at other chains, and clocks that jump. A maintenance at the very end of the lease time closes the port.", "quantifier": "all configurations and kernels letmeinfwd can start with, all histories before and after, all addresses and ports, all points of the history", "why_tests_cant": "The absence of a gap is a statement about every moment of arbitrarily long histories in which other leases come and go and commands fail.", "anchors": ["letmeinfwd/src/firewall.rs:72-90", "letmeinfwd/src/firewall.rs:117-135", "letmeinfwd/src/firewall/nftables.rs:435-500", "letmeinfwd/src/server.rs:76-144"]}
{"id": "C134", "title": "An interrupted knock can be repeated at once", "statement": "A client was interrupted at any point of its knock, and letmeind's session with it is still there. A further honest knock can be completed and succeeds, without anybody waiting for the old session to end. This holds with any number of interrupted knocks in any states, and for the same user from the same address.", "quantifier": "all configurations and keys, all states that letmeinfwd can reach, all numbers and states of interrupted knocks, all points of interruption", "why_tests_cant": "Where a client is interrupted, and which local port the next one gets, is not under the control of a test.", "anchors": ["letmein/src/client.rs:45-61", "letmein-proto/src/socket.rs:84-121", "letmein-proto/src/socket.rs:274-300", "letmeind/src/protocol.rs:55-91", "letmein/src/command/knock.rs:77-140"]}
{"id": "C135", "title": "A build whose programs need unexpected libraries fails", "statement": "If build.sh ends successfully, all commands that it has run before its checks have succeeded, and each of the three programs needs no shared library but those that the script lists.", "quantifier": "all outcomes of the commands, all libraries and outputs of ldd, both ways in which shells run the last command of a pipeline", "why_tests_cant": "A test of the script sees one list of libraries, and usually none that is unexpected.", "anchors": ["build.sh:8-29", "build.sh:31-49"]}
{"id": "C136", "title": "Running the client at intervals keeps the port open without a gap", "statement": "The client is run again and again with the same user, resource and address, each time no later than some interval after the time before, and nobody takes longer than some delay for a step of a knock. If eight delays are shorter than the client's control timeout, four are shorter than the server's, and the interval and fourteen delays together are shorter than the lease time, then every one of the runs succeeds, and from the end of the first one on the port is open at every moment, between the runs and during the next ones. For every number of runs there is such a series, with maintenance between the runs. The bound is exact: if the lease time isn't longer than the interval and fourteen delays, there is a series in which everybody is prompt and the port is closed for a while during the second run.", "quantifier": "all numbers of runs, all timed runs of client, session and letmeinfwd in which everybody is prompt, all other operations of letmeinfwd at any time, all configurations granting the resource, all keys, users and peers", "why_tests_cant": "That a script which repeats the knock leaves no gap depends on the timing of every step of each run and on everything that happens to letmeinfwd over an unlimited time.", "anchors": ["letmein/src/command/knock.rs:43-105", "letmeind/src/server.rs:100-174", "letmeinfwd/src/server.rs:76-144", "letmeinfwd/src/firewall.rs:72-135", "letmeinfwd/src/firewall/nftables.rs:435-500"]}
{"id": "C137", "title": "The Windows build reports success only if every step has succeeded", "statement": "If build.cmd says SUCCESS and ends with status 0, then every command that it lists (cleaning, installing the audit tools, building, testing, the auditable build, the audit) has been run and has succeeded.", "quantifier": "all statuses of all commands, whether goto finds the label or not", "why_tests_cant": "The commands of a build nearly always succeed; which of the 2^32 statuses a check misses is not seen by running it.", "anchors": ["build.cmd:1-25"]}
{"id": "C138", "title": "A replayed Knock is answered, but recorded messages open nothing", "statement": "As SECURITY.md says of its known weakness: a Knock that was once answered with a Challenge is answered with a fresh Challenge whenever anybody presents it again, from any address; but a session that is given only messages with tags recorded before its challenge was drawn never contacts letmeinfwd, unless two different texts have the same tag. Unless the error policy is full-auth, such a session also reports its refusal.", "quantifier": "all configurations, addresses, recorded sessions, random bytes, later sessions, and all messages composed from recorded tags (any number of them, with any ids and salts)", "why_tests_cant": "A test replays one recorded session; the claim is about every recorded tag in every message for every challenge that may be drawn.", "anchors": ["SECURITY.md:70-74", "letmeind/src/protocol.rs:119-237", "letmein-proto/src/lib.rs:286-330"]}
{"id": "C139", "title": "The error policy basic-auth is enough for stealth", "statement": "As doc/CONFIGURATION.md says, the policy basic-auth hides the server as well as full-auth: whatever makes a server with basic-auth send its first message makes a server with full-auth send one, too, because the challenge-response handshake reveals the server anyway.", "quantifier": "all configurations, addresses, received messages, random bytes and points of a session", "why_tests_cant": "Tests try one message per policy; the claim compares two policies over all messages.", "anchors": ["doc/CONFIGURATION.md:85-116", "letmeind/src/protocol.rs:92-117", "letmeind/src/protocol.rs:119-237"]}
