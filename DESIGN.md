# Formal model of letmein – design

The code in `/repo` (letmein 10.1.0) is read as text; it is neither built nor run. The model is written
by hand in Lean 4 under `lean/Verif/`. Each definition names the Rust lines it models and what it leaves out.

## Trusted base

* Lean's kernel, and the standard axioms `propext`, `Classical.choice`, `Quot.sound`. Which of them each theorem depends on is listed
  in the last section. There are no axioms of our own, no `sorry`, no `native_decide`, no `bv_decide`. (`decide +kernel` has the
  kernel evaluate a decision procedure; it is used for examples, for witnesses of negations and for whole finite tables.)
* The reading of the Rust code that the model embodies. Nothing links the model to the code mechanically.
  As evidence, `Props/UnitTests` puts the inputs of the repository's own unit tests into the model and compares with what the tests expect (two tags per test are
  computed; the tags of altered messages are not).
* The environment assumptions of the section below. They are parameters or hypotheses of the theorems, or choices of the model; never axioms.

## Layout

* `Verif/Model/*`   the code, function by function (definitions only, panics are explicit values)
* `Verif/Spec/*`    small specifications written independently of the model
* `Verif/Lemmas/*`  helper lemmas
* `Verif/Props/*`   the property theorems (`Cnn_...`), with `example`s that meet their hypotheses
* `properties.jsonl` the properties, `MANIFEST.json` which theorems prove them, `seeded/LOG.jsonl` the mutation tests

## Conventions

* `u8/u16/u32` are `UInt8/UInt16/UInt32` or bounded naturals, byte arrays are `Arr n` (lists with their length), strings are lists of
  characters, durations and instants are natural numbers of nanoseconds.
* A Rust function returning `Result` returns `R α` = `ok | err | panic`; error texts are left out (but see `Model/ConfMsg`). `panic` is a failed assertion,
  `unreachable!`, `unwrap`, out-of-range slice or arithmetic overflow (`/repo/Cargo.toml`: `panic = "abort"`, overflow checks on).
* `&mut self` methods return the new value. Printing is left out.
* A `HashMap` is an association list; its iteration order is arbitrary (a `reorder` step, or a theorem about all permutations).
* Asynchronous protocol code is a `Prog`: a tree of actions, each continued by whatever the environment answers. A theorem about all
  traces of a program holds for every environment, also an adaptive one.
* Where a property is false of the code, its negation is proved with a concrete witness (`_negation`, `_fails`) and the strongest true
  part found is kept under a name ending in `_partial`.

## What is modelled

| module | source | left out |
|--------|--------|----------|
| `Model/Base`, `Text`, `StdText` | Rust's slices, integers, text functions (standard library, after its documentation) | lower-casing other than ASCII and U+212A; positions are counted in characters (all searched characters are ASCII) |
| `Model/Wire` | `letmein-proto/src/lib.rs` | debug output; that comparison takes constant time; HMAC-SHA3-256 is a parameter (see `Model/Hmac`) |
| `Model/Hmac` | HMAC-SHA3-256 as used in `letmein-proto/src/lib.rs:268-275`, after FIPS 202 and FIPS 198-1 (the crates `sha3` and `hmac` are not in the repository) | keys longer than a block |
| `Model/FwWire` | `letmein-fwproto/src/lib.rs` | Windows named pipes |
| `Model/Stream` | send and receive loops of `letmein-proto/src/socket.rs:388-467` (TCP), `letmein-fwproto/src/lib.rs:278-331` | waiting itself |
| `Model/Udp` | `letmein-proto/src/socket.rs:30-323,425-495`, with the sessions of `letmeind/src/main.rs:157-190` | sending (no state) |
| `Model/Prog`, `Session` | `letmeind/src/protocol.rs`, `letmeind/src/firewall_client.rs` | |
| `Model/Client` | `letmein/src/client.rs:77-110`, `letmein/src/command/knock.rs:40-127` | |
| `Model/Knock` | `letmein/src/main.rs` (options), `resolver.rs`, `client.rs:31-74`, `command/knock.rs:129-243` | clap; hickory-resolver; address literal parser (parameters; the latter is given by `Model/IpParse` in C89) |
| `Model/IpParse` | `str::parse::<IpAddr>` as used at `letmein/src/resolver.rs:75,80,110` | written after the standard library's source from memory, on characters instead of bytes |
| `Model/Joint` | one client, one session, reliable connection | |
| `Model/ByteJoint` | the same over a byte stream, with sends and receives in progress on both sides | failures |
| `Model/UdpJoint` | the same over UDP: both dispatchers, the server's shared with arbitrary other peers, datagrams handed out in any order | loss and duplication in transit, spoofed datagrams of the client's address, failures, time limits |
| `Model/UdpBusy` | letmeind's UDP dispatcher with one session program per accepted connection, interleaved arbitrarily; a failed send may or may not have put the datagram on the wire | the connection semaphore (C57), config contents, time |
| `Model/Lossy` | client (`Model/Client`) and one session (`Model/Session`) over datagrams that may be lost, delayed, reordered and delivered repeatedly | further sessions begun by late datagrams, the dispatcher (`Model/Udp`), forged datagrams (traces of `Model/Prog`) |
| `Model/Whole` | one client, one session and letmeinfwd in full, which also serves others | failures of this exchange |
| `Model/Crowd` | `letmeind/src/main.rs:153-190`, `letmeinfwd/src/main.rs:216-245`: any number of clients with their sessions, and the letmeinfwd that they share | failures of these exchanges; which session a message belongs to (`Model/Udp`; for TCP the kernel) |
| `Model/Punctual` | `letmein/src/client.rs:77-110`, `letmeind/src/protocol.rs:55-91`: `Whole` with time and the control timeouts | failures other than by time limits; a message whose sending timed out is not delivered |
| `Model/Reuse` | `letmein/src/client.rs:45-61`, `letmein-proto/src/socket.rs:84-121,274-300`: a new client with the address and port of an interrupted one | datagrams lost between the two clients |
| `Model/Network` | any number of clients and sessions, network run by the attacker | |
| `Model/Firewall` | `letmeinfwd/src/firewall.rs`, `firewall/nftables.rs` | the JSON that `nft` prints when the ruleset is listed; the JSON handed to it is in `Model/NftJson` |
| `Model/NftJson` | `letmeinfwd/src/firewall/nftables.rs:332-343`: `Batch::to_nftables`, `serde_json::to_string` | field names and escapes of the crates `nftables` and `serde_json` written down from their documentation, not from their source; only the values, statements and commands that letmeinfwd uses |
| `Model/NftRuns` | `letmeinfwd/src/firewall/nftables.rs:187-199,290-477`: the child processes with command line and standard input; `execvp(3)` | the exit status of a child (an input); errors of execvp other than "cannot be run"; the argument lists of the crate `nftables` are assumed |
| `Model/OwnTests` | `tests/run-tests.sh:40-128`, `tests/conf/*.conf`, `tests/stubs/nft`: the configuration files, the stub's exit status, the command lines, what the script cuts out of outputs and files | building, waiting, killing and cleaning up by the script; `nft` stub's reading of its input |
| `Model/BuildScript` | `build.sh`: the commands' success, the check of the libraries that the programs need | what the commands do; the text of messages |
| `Model/BuildCmd` | `build.cmd`: its lines as `cmd.exe` runs them | what the commands do |
| `Model/FwCount` | `letmeinfwd/src/firewall/nftables.rs:319-330` and the field `num_ctrl_rules` | |
| `Model/MaintTask` | `letmeinfwd/src/main.rs:46,245-262`, when the rounds of the maintenance task take place | `tokio::time::interval` after its documentation |
| `Model/FwServer` | `letmeinfwd/src/server.rs:44-145`, tasks of `letmeinfwd/src/main.rs:178-304` | |
| `Model/FwAccept` | `letmeinfwd/src/uid_gid.rs`, `server.rs:31-42,209-255`, `main.rs:95-102` | |
| `Model/Trio` | client, session and letmeinfwd together | |
| `Model/ConfTypes`, `Conf` | `letmein-conf/src/*.rs`, `letmein/src/command/genkey.rs` | reading the file (input); default path. `f64` parsing is a parameter of all theorems except C88 |
| `Model/ConfMsg` | what is printed if the configuration cannot be loaded: `letmein-conf/src/lib.rs:267-286,516-568`, `parse.rs:50-74`, the `context` of the mains | layout of anyhow; the texts about other sections than `[KEYS]` and about names of options are parameters that get only what is read there |
| `Model/Units` | `letmeind/letmeind.service`, `letmeind.socket`, `letmeinfwd/letmeinfwd.service`, `letmeinfwd.socket`: `Requires=`, `PartOf=`, `After=` | systemd after systemd.unit(5): units are active when a restart is asked for, stopping and starting take effect at one moment; targets, time-outs, other units. `nftables.service` of the distribution is a parameter |
| `Model/Float` | `str::parse::<f64>` and `Duration::from_secs_f64` as used at `letmein-conf/src/parse.rs:40-48,80-83` | written after the standard library's documentation; the implementation stops reading an exponent's digits above 65536 |
| `Model/Daemon` | `letmein-systemd/src/lib.rs:90-182`, `letmeind/src/server.rs`, `letmeind/src/main.rs:121-216`, `letmeinfwd/src/server.rs:147-255`, `letmeinfwd/src/main.rs:172-304` | signal registration |
| `Model/AcceptAhead` | the spawned accept tasks of `letmeind/src/server.rs:85-110,194-225` around the loop of `Model/Daemon` (C104: that model is exact without them) | what the UDP task changes in the dispatcher (`Model/Udp`) |
| `Model/SystemdFd` | `letmein-systemd/src/lib.rs:31-118` | the system calls themselves: their answers are inputs |
| `Model/DefaultPath` | `letmein-conf/src/lib.rs:34-44,483-508`, the `get_config` of the three programs | Windows variants |
| `Model/FwTasks` | the tasks of `letmeinfwd/src/main.rs:215-304` around the mutex, with `server.rs:76-144` and `firewall/nftables.rs:332-476` as programs that wait for `nft` | fairness of the mutex (any waiter may be next); the connection semaphore (its permit is released at once) |
| `Model/NftLost` | the same with runs of `nft` that take effect and are reported as failed (`firewall/nftables.rs:332-343`) | listings that are wrong |
| `Model/DocRuleset` | the input chain of the documented ruleset (`doc/nftables.conf:8-32`): walking through the rules with interface, connection state and protocol | static rules that jump to other chains; the forward and output chains; a chain or table that does not exist |
| `Model/RunDir` | `letmeind/src/main.rs:42-76,124,146`, `letmeinfwd/src/main.rs:51-114,183,209`, `letmeinfwd/src/server.rs:179-200` | symbolic links; other programs working in the run directory at the same time; parent directories |
| `Model/MkDirs` | `letmeind/src/main.rs:42-64`, `letmeinfwd/src/main.rs:51-82`: `create_dir_if_not_exists` and the standard library's `create_dir_all`, call by call, with any number of processes and others at work | symbolic links, `.` and `..`, search permission; that `create_dir_all` is as in the standard library's source is assumed |
| `Model/Install` | `install-server.sh`, `install-client.sh`, `scripts/lib.sh:24-72` as system calls on files with owner, group and mode | GNU install/chown/chmod themselves (their documented system calls are assumed), systemctl, symbolic links |
| `Model/Uninstall` | the commands of `doc/INSTALL.md:117-132` as changes of files, units and accounts | rm and systemctl themselves (their documented effect is the model); runtime files below /run, which systemd removes when the units stop |
| `Model/Main` | `letmein/src/main.rs:73-316`, `letmeind/src/main.rs:78-160`, `letmeinfwd/src/main.rs:116-217` (the `main` functions from the parsed command line to the start of the tasks) | clap; `--verbose`, `--version` output; creation of the runtime; registration of the signal handlers |
| `Model/Ready` | the same start-up with the steps that it got through, and `systemd_notify_ready` (`letmein-systemd/src/lib.rs:182-188`); `Requires=` when a unit is started | `sd_notify` itself; systemd's time limit for a start |
| `Model/Accounts` | `create-user.sh` on `/etc/passwd` and `/etc/group` | the shadow utilities themselves (their documented refusals are assumed; they choose free ids), shadow passwords, name services other than files |
| `Model/Services` | `install-server.sh`, `restart.sh`, `scripts/lib.sh` as calls of systemctl | what a failing call does is arbitrary within limits; services that end by themselves |
| `Model/Takeover` | starts of letmeind one after the other (`letmeind/src/main.rs:122-150`, a kill after any system call included), with `letmeinfwd/src/server.rs:209-255` | two starts at the same time |
| `Model/Process` | `letmeinfwd/src/main.rs:178-217`, `:262-321`: signals before the handlers are registered (default action: the process is killed), `exitcode` and exit status | signals that cannot be handled (SIGKILL); exit status of letmeind |
| `Model/Timing` | the time limits around the waits of `letmeind/src/protocol.rs`, `letmein/src/command/knock.rs` (which waits have one and which not) | the clock itself: durations are attached to the steps of a run |
| `Model/System` | all sessions, the network and letmeinfwd in one history | |
| `Model/Seccomp` | `letmein-seccomp/src/lib.rs`, `seccomp.rs` of the three programs | `seccompiler`'s code generation (its documented meaning is used) |

Not modelled at all: `build.rs` files (but for the platforms that have a filter), the release scripts, documentation (but for the parts named above), the rest of `tests/`, the `Display` implementations that are
only used for printing, the tokio runtime, the operating system.

## Assumptions

* Cryptography: the MAC is an arbitrary function (C95 says which one is in use, by the bit-level definitions of the standards in `Spec/Keccak`; C87 what a collision of it amounts to). Collisions and forgeries, where they matter, are alternatives of the conclusion
  (`C03_tag_binds`, `C15_request_needs_live_client`, `C16_address_partial`) or excluded for the run in question by a hypothesis
  (`C15_no_more_openings_than_responses`, which also assumes that no nonce is drawn twice). Nothing is said about probabilities.
* The random generator may fail or return anything; what depends on freshness says so.
* Runtime: the programs are single threaded (`current_thread`); code between two awaits is atomic; tasks run only inside `block_on`. That the operations of letmeinfwd under its mutex can be taken as
  atomic is not assumed but proved (C83).
* Streams deliver bytes in order; reads and writes are split in any way. UDP may do anything; `recvfrom` cuts datagrams to the buffer.
* UDP dispatcher: `usize` has 64 bits and a `Vec` cannot exceed it; `watch` channels are flags "changed since last seen".
* Netfilter: `nft` applies a batch completely or not at all; handles are unique and grow; `add` appends, `delete` needs an existing handle,
  `flush` empties a chain; an address literal matches the address it denotes (RFC 4291). Theorems that need it assume that other
  programs leave letmein's own chain alone (`Fair`, which also says that a reordering keeps the entries); the others do not.
* Configuration: decimal fractions of durations are parsed by a parameter; the order of sections and options is any permutation.
* Knock: answers of name servers and the outcome of opening a socket are functions of the request (each is made at most once per run).
* Daemons: the limit of file descriptors is a parameter; a session's last step and the closing of its connection are one step.
* System: a connection to letmeinfwd's socket with letmeind's pid carries only messages that letmeind's sessions send, and the pid file says what
  letmeind has written (`SystemRun`).
* Files: a call either fails without effect or has its documented effect; root's calls are permission checked like anybody's (`FsEnv.ok` decides
  which fail).
* System call filters: within one architecture different names have different numbers; the limit of the BPF program's length is ignored.

## Findings

Statements that one would like to hold and that are false of the code; each is a theorem (see the tables for the names).

* C11: before a Knock has been accepted as such, a Go-Away carries the ids FFFFFFFF.
* C16: the peer's address is not authenticated: whoever relays an exchange gets the port opened for their own address.
* C18: letmeinfwd does not compare the requested protocol with the resource's.
* C25: the unspecified and the broadcast address pass letmeinfwd's check when written as IPv4-mapped IPv6 addresses.
* C30: five datagrams of one peer and the end of the session crash letmeind (counter of queued datagrams is not reduced on overflow).
* C31, C32: a short datagram makes the operation fail in which it is read, whoever sent it; a long one is cut and delivered.
* C33, C41: the client takes an unreadable or malformed configuration file for an empty one, and on reloading keeps its old settings; C55: unknown sections and options are ignored; C40: of two
  entries with the same spelling of an id the last one counts.
* C43: `--num-connections` limits nothing, since the permit is released when the session's task has been spawned.
* C46: with sockets from systemd, a configured protocol without such a socket is not served.
* C81: `get_socket_family` demands an address of at least 16 bytes, so a Unix socket whose path has up to 12 bytes is "unknown" and letmeinfwd does not start; protocol and port of a socket from systemd are not checked (with `port = 5900` and the shipped unit letmeind serves 5800 while letmeinfwd opens 5900).
* C84: if a run of `nft` for a new lease takes effect and is reported as failed, the request is refused, no lease is kept, and the port stays open until the chain is flushed; `open_port` does not rebuild the chain as `maintain` does. A second knock adds the rule again, and its expiry removes only one of the two.
* C47: a filter with an unrestricted and a restricted entry for one system call keeps the restriction (does not occur in the shipped lists).
* C48: the client may report success when the port is closed again: letmeinfwd was terminated, or the lease time is configured
  shorter than the control timeout.
* C50: after an overflow a peer can have two sessions, and the end of the older removes the connection of the newer.
* C51, C53: wake-ups are lost: an accept round takes one connection even if several wait, and a round that reads a bad datagram fails
  before it has passed the notification on.
* C56: idle connections until `accept` fails with EMFILE terminate letmeind. C57: SIGTERM with a session in progress aborts on an assertion.
* C58: any local process that may open the socket terminates letmeinfwd by connecting.
* C59: a start-up that fails after the rules have been written leaves them.
* C97: a signal between writing the rules and registering the handlers kills letmeinfwd and leaves them.
* C98: the first name server that answers decides, also if its answer has no address of the family; the others are not asked.
* C99: there is no limit on the number of leases; every address that knocks gets its own rules until they expire.
* C101: nothing keeps a second letmeinfwd from starting; it closes everything the first one has opened, and the first one acknowledges renewals
  without opening again. Nothing is opened that none of them has granted.
* C102: a start of letmeind that gets its sockets (another port, or sockets from systemd) replaces the pid of a running letmeind, even if it then fails; the
  next knock on the running one terminates letmeinfwd. A second start that cannot bind its port does no harm.
* C103: the pid file is not removed when letmeind ends. A later process under letmeind's account with the same pid is served although no letmeind runs; and a letmeind
  killed in the middle of writing its pid leaves its first digits as the pid to be served.
- C139: doc/CONFIGURATION.md says that the error policy `basic-auth` is enough for stealth, as the handshake reveals the server anyway. A valid Knock for a resource that is not granted to its user, or a replay of it, is answered with Go-Away before any handshake; with `full-auth` it is not (`C139_negation`, `C139_exact`).
- C137: `build.cmd` tests `if ERRORLEVEL 1`, which is not true for the negative statuses of crashed programs, so that it goes on after a crash and may end with SUCCESS (`C137_negation`, `C137_success_iff`).
- C135: `check_dynlibs` of `build.sh` never looks at the last line that `ldd` prints (`C135_last_line_unchecked`), and in dash and bash its `die` ends a subshell only, so that the script ends successfully although `letmein` or `letmeind` need an unexpected library (`C135_only_last_program`).
- C134: over UDP a session belongs to an address and port. If a client is interrupted after the Challenge and the next one has the same port, the old session gets its Knock while waiting for a Response and rejects it; the new client cannot succeed (`C134_same_port_refused`), until the old session has ended.
- C130: `wait_for_pidfile` of `tests/run-tests.sh` finds the pid file of a starting daemon as soon as it has been opened; until it has been written the content is empty, and the test ends with "Invalid PID-file" although the daemon starts as it should (`C130_pidfile_race`).
* C128: `doc/CONFIGURATION.md:262` says that the path of nft cannot end with a backslash. The code accepts such a path (`C128_values`); nothing depends on it.
* C126: the commands that doc/INSTALL.md gives to "completely remove letmein" leave the user and the group `letmeind`, which create-user.sh made, on the system (`C126_negation`).
* C125: README.md's usage example works only after its second restart (of nftables.service, which also restarts letmeinfwd); after the first one (of letmeind.service) the knock fails, because letmeinfwd has not read the new resource (`C125_second_restart`).
* C124: a configuration file is accepted although nobody can open one of its resources: a resource may have the control port (refused at each knock with `Incorrect configuration`), and may be for users without a key.
* C123: the client sends the identifier of the resource only. If its configuration has another port for the resource than the server's, `letmein knock HOST PORT` succeeds, PORT stays closed, and another port is open.
* C122: `create-user.sh` deletes and recreates user and group. On an installed system the new gid may differ: `letmeind.conf` stays with the old gid until `install-server.sh` is run again, so letmeind cannot read it, and a group that is made later may get the old gid and with it read access to the keys. If the creation fails, the old user is gone.
* C121: `letmeind` sets neither owner nor mode of `/run/letmeind` and `letmeind.pid` (letmeinfwd does for its own directory and socket). Started by hand with an empty umask, or with a directory that another user made before, others can change the pid file, and letmeinfwd then serves a process they choose. Under the shipped unit (`RuntimeDirectoryMode=0750`, default umask) this is impossible.
* C119: `restart.sh` disables all four units (it shares `stop_services` with the installation) and only starts them again: after the next boot letmein does not run, the control port is closed and nobody can knock. An installation that fails leaves letmein stopped and disabled.
* C116: as shipped, letmeinfwd may be started before nftables.service has loaded the ruleset (no `After=`); a restart of nftables.service then leaves the control port closed. With `After=nftables.service` every order is right (`C116_after`).
* C117: the port is opened before the acknowledgement is sent; if that, or the Come-In, is lost, the client reports failure and the port is open for the lease time.
* C118: systemd is told that a service is up before its start-up is complete (pid file and system call filter come later and may fail). If letmeind.service is started without letmeind.socket, which it does not require, letmeind binds its own sockets and never tells systemd, which ends it when the start times out.
* C111: the client goes on after a Challenge or Come-In whose user or resource is not that of its Knock; `check_reply` only prints a warning.
* C107: letmeinfwd has its own copy of the configuration. `systemctl restart letmeind.service` (README.md) does not restart letmeinfwd, so a newly added resource port is refused until letmeinfwd is restarted as well (the restart of nftables.service later in the README does that).
* C106: `install-client.sh` makes the client's configuration, which holds the keys, readable by everybody (mode 0644), also one that was closed before. `install-server.sh` uses 0640 with group letmeind.
* C105: over UDP neither side recognises a repeated datagram. The session takes a second copy of the Knock for the Response and refuses; the client takes a second copy of the Challenge for the final answer and reports failure, with the port open. Exactly the runs without copies succeed (`C105_succeeds_iff`).
* C100: rules left in a chain that the configuration no longer names are not removed by anybody.
* C62: on platforms without support the configured filter is skipped with a warning.
* C68: neither connecting (client) nor the conversation with letmeinfwd (letmeind) has a time limit. (The peer can delay either program by four
  control timeouts at most.)
* C69: the client checks neither authentication nor ids of what it receives (it warns about wrong ids): whoever answers is believed.
* C70: a renewed request writes no rule, so after the chain was emptied by another program the client is told that its port is open while it is
  closed, until the lease expires.
* C75: sessions over UDP poll every 10 ms while a datagram of another session waits unfetched, and for ever after an overflow.
* C76: `--num-connections` above 2^61 - 1 makes both daemons panic; letmeinfwd leaves the control port's rules behind.
* C77: nothing limits the run of `nft`: if it hangs, ports stay open past their time, and no other request is served (the lock is held).
* C78: the rule count printed after a failed maintenance lacks the rules that could not be removed.
* C86: after a reload of the ruleset (`flush ruleset`) the control port and all granted ports stay closed until a grant expires, for ever if there is
  none. `letmeinfwd.service` requires `nftables.service` but is not ordered after it, and a reload of nftables is not passed on.
* C89: an address with a zone (`fe80::1%eth0`), in brackets (`[::1]`) or with superfluous zeros (`010.0.0.1`) is not taken as an address; it is sent to
  the name servers as a host name. That is as documented by the standard library.
* C88: a negative time is accepted, as zero, if it is closer to zero than `2^-1075` s (`-0`, `-1e-400`).

## Properties, theorems and axioms

Axioms: p = `propext`, c = `Classical.choice`, q = `Quot.sound`. All names are in the namespace `Letmein.Props`.

| id | title | status | theorems (axioms) |
|----|-------|--------|----|
| C01 | Knock-protocol messages survive the wire | proved | `C01_serialize_layout` (pq), `C01_new_magic` (p), `C01_roundtrip` (pcq) |
| C02 | Knock-protocol decoder accepts exactly the well-formed messages | proved | `C02_decode_iff` (pcq), `C02_accept_iff` (pcq), `C02_canonical` (pcq), `C02_no_panic` (pcq) |
| C03 | The authenticated data determines every protected field | proved | `C03_macText_spec` (pq), `C03_macText_injective` (pcq), `C03_tag_binds` (pcq), `C03_knock_is_not_response` (pcq) |
| C04 | Generated tags verify; altered messages do not | proved | `C04_check_knock_iff` (pq), `C04_check_response_iff` (pq), `C04_knock_roundtrip` (pq), `C04_response_roundtrip` (pq), `C04_tampered_response_rejected` (pcq), `C04_tampered_knock_rejected` (pcq) |
| C05 | TCP transport delivers messages whole under any fragmentation | proved | `C05_recv_any_schedule` (pcq), `C05_recv_completes` (pcq), `C05_closed` (p), `C05_send_any_schedule` (pcq), `C05_transfer_prefix` (pcq), `C05_transfer_exact` (pcq), `C05_truncated_tail` (pcq), `C05_fw_transfer_exact` (pcq) |
| C06 | Firewall-daemon messages survive the wire | proved | `C06_serialize_layout` (pq), `C06_decode_iff` (pcq), `C06_roundtrip` (pcq), `C06_canonical` (pcq), `C06_accept_iff` (pcq), `C06_no_panic` (pcq), `C06_open_roundtrip` (pcq), `C06_reply_roundtrip` (pcq), `C06_reply_bytes` (pq) |
| C07 | No firewall request without complete authentication | proved | `C07_no_request_without_full_auth` (pcq) |
| C08 | The firewall request is exactly what the configuration grants | proved | `C08_request_content` (pcq), `C08_at_most_one` (pcq) |
| C09 | Come-In is sent only after the firewall acknowledged | proved | `C09_comein_after_ack` (pcq), `C09_nothing_after_verdict` (pcq), `C09_success_iff` (pcq) |
| C10 | Stealth: error policy decides who can get any answer | proved | `C10_stealth` (pcq), `C10_goaway_permitted` (pcq), `C10_rejections_answered` (pcq) |
| C11 | Reply messages carry the ids of the Knock | partial | `C11_reply_ids_partial` (pcq), `C11_fails_before_knock` (pq) |
| C12 | No peer can make the server session panic | proved | `C12_loaded_config_has_proto` (pcq), `C12_no_panic` (pcq), `C12_needs_proto` (pq) |
| C13 | The client reports success only after Come-In | proved | `C13_sends` (pcq), `C13_success` (pcq), `C13_verdict` (pcq) |
| C14 | An honest client and an honest server always get to Come-In | proved | `C14_every_run_succeeds` (pcq), `C14_run_exists` (pcq) |
| C15 | Replay and forgery resistance against an active network attacker | proved | `C15_request_needs_live_client` (pcq), `C15_answer_is_fresh` (pq), `C15_response_serves_one_session` (pcq), `C15_no_more_openings_than_responses` (pcq) |
| C16 | The opening is bound to the key holder's own address | partial | `C16_address_partial` (pcq), `C16_fails_with_relay` (pq) |
| C17 | letmeinfwd ignores requests outside its configuration | proved | `C17_only_configured_requests` (pcq), `C17_others_refused` (pcq), `C17_valid_requests_acked` (pcq), `C17_open_answered` (pcq) |
| C18 | letmeinfwd opens only the configured transport protocol | partial | `C18_protocol_irrelevant` (pcq), `C18_configured_protocol_partial` (pcq), `C18_fails` (pcq) |
| C19 | The firewall chain always equals control port plus live leases | proved | `C19_chain_equals_grants` (pcq), `C19_keeps_running` (pcq) |
| C20 | An opened port closes again in bounded time | proved | `C20_bounded` (pcq), `C20_not_early` (pcq), `C20_never_unasked` (pcq) |
| C21 | Knocking again renews and never duplicates | proved | `C21_renewal` (pcq), `C21_rule_count` (pcq) |
| C22 | Shutdown closes everything | proved | `C22_shutdown_closes_everything` (pcq) |
| C23 | letmeinfwd never touches foreign rules | proved | `C23_foreign_rules_untouched` (pcq), `C23_start_untouched` (pcq), `C23_start_iff` (pcq) |
| C24 | A lease opens the port for its source address only | proved | `C24_lease_rules` (pcq), `C24_literals_denote` (pcq) |
| C25 | Special addresses never get a lease | partial | `C25_openable_iff` (pcq), `C25_special_addresses_partial` (pcq), `C25_fails` (pcq) |
| C26 | Only letmeind's process can talk to letmeinfwd | proved | `C26_served_iff` (pcq), `C26_test_mode` (pcq), `C26_single_identity` (pcq) |
| C27 | UDP server memory stays bounded | proved | `C27_bounded_memory` (pcq) |
| C28 | UDP datagrams reach only their own session, in order, at most once | proved | `C28_own_datagrams_only` (pcq), `C28_session` (pcq), `C28_only_sessions` (pcq), `C28_nothing_lost` (pcq), `C28_delivers` (pcq) |
| C29 | UDP accept hands out each pending peer exactly once | proved | `C29_accept_only_waiting` (pcq), `C29_never_twice` (pcq), `C29_none_waiting` (pcq), `C29_new_peer_waits` (pcq), `C29_waiting_stays` (pcq) |
| C30 | No UDP traffic can crash the server | partial | `C30_counter` (pcq), `C30_crash_iff` (pcq), `C30_worn_out` (pcq), `C30_no_crash_partial` (pcq), `C30_overflow_crashes` (pq), `C30_negation` (pq) |
| C31 | A bad datagram of one peer does not disturb another peer's session | partial | `C31_failure_iff` (pcq), `C31_anybody_fails` (pcq), `C31_failure_cause_partial` (pcq), `C31_negation` (p) |
| C32 | Datagrams of wrong size are rejected | partial | `C32_delivered_iff` (pcq), `C32_size_partial` (pcq), `C32_exact_size_partial` (pcq), `C32_negation` (p) |
| C33 | Configuration loading is all-or-nothing | partial | `C33_failure_changes_nothing` (pcq), `C33_success_all_new_partial` (pcq), `C33_client_fresh` (pcq), `C33_negation` (pcq), `C33_exact` (pcq) |
| C34 | A users restriction is never lost | proved | `C34_users_restriction` (pcq), `C34_only_defined_resources` (pcq) |
| C35 | Loaded keys are exactly the configured 32 bytes and never trivial | proved | `C35_key_is_written` (pcq), `C35_every_key_loaded` (pcq) |
| C36 | Port lookup is unambiguous | proved | `C36_ports_distinct` (pcq), `C36_lookup_unambiguous` (pcq) |
| C37 | Loading does not depend on hash map order | proved | `C37_order_irrelevant` (pcq) |
| C38 | The control port is always reachable by some protocol, and the client uses exactly one | proved | `C38_loaded_port_enabled` (pcq), `C38_port_enabled_invariant` (pcq), `C38_exactly_one_protocol` (p), `C38_client_never_panics` (pq) |
| C39 | gen-key output is a valid configuration entry | proved | `C39_line_is_entry` (pcq), `C39_line_is_loaded` (pcq) |
| C40 | Defining a key or resource twice is an error | partial | `C40_duplicates_rejected_partial` (pcq), `C40_negation` (pcq), `C40_overridden` (pcq), `C40_distinct_iff` (pcq) |
| C41 | A malformed configuration file is reported | partial | `C41_malformed_reported_partial` (pcq), `C41_negation` (pcq), `C41_ok_iff` (pcq) |
| C42 | Identifiers print and parse consistently | proved | `C42_print_parse` (pcq), `C42_printed_form` (pcq), `C42_parse_iff` (pcq), `C42_rejects_large` (pcq), `C42_case_insensitive` (pcq) |
| C43 | The connection limit is enforced | partial | `C43_permits_unused` (pq), `C43_negation` (pq), `C43_descriptors_partial` (pq), `C43_fwd_permits_unused` (pcq) |
| C44 | Name resolution honours address family and DNS policy | proved | `C44_options` (pcq), `C44_family` (pq), `C44_literal` (p), `C44_queries` (pq), `C44_policy` (pcq) |
| C45 | Which addresses are knocked and when knocking succeeds | proved | `C45_nothing_without_key_and_resource` (pq), `C45_families_and_verdict` (pcq), `C45_success_means_comein` (pcq) |
| C46 | The server listens on exactly the configured protocols | partial | `C46_only_configured` (pq), `C46_exactly_configured_partial` (pq), `C46_serves_something` (pq), `C46_negation` (–), `C46_passed_sockets` (pq), `C46_served_iff` (pq), `C46_exactly_configured_iff` (pcq), `C46_passed_iff` (pq), `C46_starts_iff` (pq) |
| C47 | Seccomp filters allow the union of what is listed | partial | `C47_nothing_else` (pcq), `C47_union_partial` (pcq), `C47_negation` (pq), `C47_compile_ok_iff` (pcq), `C47_letmeind` (pcq), `C47_letmein` (pcq), `C47_letmeinfwd` (pcq), `C47_letmeind_harmless` (pcq) |
| C48 | Client success means the port is really open | partial | `C48_success_means_open_partial` (pcq), `C48_negation_shutdown` (pcq), `C48_negation_expired` (pcq), `C48_iff` (pcq) |
| C49 | letmeinfwd never runs into a failing assertion | proved | `C49_no_crash` (pcq), `C49_start_no_panic` (pcq) |
| C50 | Ending a session does not disturb another session | partial | `C50_per_peer` (pcq), `C50_close_iff` (pcq), `C50_own_connection_partial` (pcq), `C50_negation` (pq) |
| C51 | A waiting UDP peer is always noticed | partial | `C51_lost_iff` (pcq), `C51_waiting_noticed_partial` (pcq), `C51_negation` (pq), `C51_negation_single` (pq) |
| C52 | Finished UDP sessions leave nothing behind | proved | `C52_no_leaked_connection` (pcq), `C52_ended_session_receives_nothing` (pcq) |
| C53 | Queued datagrams are always noticed | partial | `C53_deaf_iff` (pcq), `C53_data_noticed_partial` (pcq), `C53_negation` (p) |
| C54 | A loaded configuration is exactly what the file says | proved | `C54_determined` (pcq), `C54_loaded_is_described` (pcq), `C54_described_is_loaded` (pcq), `C54_server_needs_document` (pcq), `C54_blanks` (pcq) |
| C55 | Unknown sections and options are reported | partial | `C55_negation` (pcq), `C55_unknown_names_ignored_partial` (pcq), `C55_same_outcome` (pcq) |
| C56 | Peers cannot terminate letmeind | partial | `C56_negation` (pq), `C56_keeps_accepting_partial` (pq), `C56_keeps_accepting_iff` (pcq) |
| C57 | SIGTERM ends letmeind orderly | partial | `C57_negation` (p), `C57_orderly_exit_partial` (pq), `C57_sighup_ignored` (p), `C57_exit_iff` (pq), `C57_sessions_iff` (pcq) |
| C58 | A rejected local connection does not stop letmeinfwd | partial | `C58_rejected_changes_nothing_partial` (pcq), `C58_negation` (pcq) |
| C59 | letmeinfwd leaves no rules behind | partial | `C59_no_rules_left_partial` (pcq), `C59_negation` (pcq), `C59_failed_start_iff` (pcq) |
| C60 | Every open port was asked for by letmeind | proved | `C60_asked_by_letmeind` (pcq) |
| C61 | letmeinfwd's socket is not open to others | proved | `C61_socket` (p), `C61_socket_iff` (pq) |
| C62 | The configured seccomp mode is in force | partial | `C62_unfiltered_iff` (pq), `C62_mode_in_force_partial` (pq), `C62_no_silent_failure` (pq), `C62_negation` (pq) |
| C63 | Only key holders' addresses get in | proved | `C63_only_key_holders_get_in` (pcq), `C63_for_bounded_time` (pcq) |
| C64 | The pid file names letmeind | proved | `C64_pid_round_trip` (pcq), `C64_no_other_pid` (pcq), `C64_failed_write` (pcq) |
| C65 | The socket is never open to outsiders, not even during start-up | proved | `C65_never_open` (pcq), `C65_open_for_group` (pcq), `C65_others_stay` (pcq) |
| C66 | What runs is completely set up | proved | `C66_letmeind` (pcq), `C66_letmeinfwd` (pcq), `C66_client_filter_first` (pcq), `C66_client_network` (pcq), `C66_client_success` (pcq), `C66_client_genkey` (pcq) |
| C67 | One request per connection | proved | `C67_no_more_requests_than_connections` (pcq), `C67_second_message_ignored` (pcq) |
| C68 | Exchanges end in bounded time | partial | `C68_session_peer_time` (pq), `C68_session_total_partial` (pq), `C68_client_peer_time` (pq), `C68_client_total_partial` (pq), `C68_client_no_limit` (pq), `C68_session_no_limit` (pq) |
| C69 | The client knows whom it talks to | partial | `C69_anyone_is_believed` (pq), `C69_fails` (pcq), `C69_authentic_partial` (pcq), `C69_success_iff` (pcq) |
| C70 | Interference with the chain is repaired | partial | `C70_open_iff` (pcq), `C70_first_request_partial` (pcq), `C70_recovery` (pcq), `C70_fails` (pcq) |
| C71 | What a peer without the key can find out | proved | `C71_no_leak` (pcq) |
| C72 | A generated key works | proved | `C72_generated_key_works` (pcq) |
| C73 | An honest exchange succeeds whatever the pieces | proved | `C73_every_byte_run_succeeds` (pcq), `C73_byte_run_exists` (pcq), `C73_tx_round` (pq), `C73_rx_round` (pq) |
| C74 | An honest exchange over UDP succeeds on a busy server | proved | `C74_never_fails` (pcq), `C74_can_finish` (pcq) |
| C75 | Without traffic the UDP server sleeps | partial | `C75_accept_wakeups` (pq), `C75_idle_partial` (pcq), `C75_negation_waiting` (p), `C75_negation_overflow` (p) |
| C76 | Starting up fails gracefully | partial | `C76_letmeind_iff` (pcq), `C76_letmeinfwd_iff` (pcq), `C76_letmeind_partial` (pcq), `C76_letmeinfwd_partial` (pcq), `C76_letmein` (pcq), `C76_negation` (pcq), `C76_negation_fwd` (pcq), `C76_life_iff` (pcq), `C76_no_firewall` (pcq) |
| C77 | Ports close in time | partial | `C77_rounds` (pcq), `C77_closes_in_time_partial` (pcq), `C77_negation` (pcq) |
| C78 | The printed rule count is right | partial | `C78_count_partial` (pcq), `C78_negation` (pcq), `C78_printed_iff` (pcq) |
| C79 | An honest knock opens the port | proved | `C79_honest_knock_opens` (pcq), `C79_complete_run` (pcq) |
| C80 | From the configuration files to the packets | proved | `C80_only_described` (pcq), `C80_one_file` (pcq), `C80_command_opens` (pcq) |
| C81 | Sockets from the service manager are taken for what they are | partial | `C81_recognised_partial` (pcq), `C81_error_iff` (pcq), `C81_letmeinfwd` (pcq), `C81_shipped_letmeinfwd` (pcq), `C81_shipped_letmeind` (pcq), `C81_short_name_negation` (pcq), `C81_protocol_negation` (pcq), `C81_port_negation` (pcq) |
| C82 | Where the configuration is read from | proved | `C82_default_path` (pcq), `C82_client_has_its_own` (pcq), `C82_daemons_share` (pcq) |
| C83 | Concurrent tasks of letmeinfwd act one after the other | proved | `C83_serial` (pcq), `C83_ruleset` (pcq), `C83_only_asked` (pcq), `C83_no_crash` (pcq), `C83_answer_possible` (pcq), `C83_unanswered` (pcq), `C83_nft_runs` (pcq) |
| C84 | A refused request opens nothing | partial | `C84_nothing_unasked` (pcq), `C84_refused_partial` (pcq), `C84_shutdown` (pcq), `C84_negation` (pcq) |
| C85 | With the documented ruleset services are hidden from everyone who has not knocked | proved | `C85_hidden` (pcq), `C85_closed_in_time` (pcq), `C85_established` (pcq), `C85_only_opens` (pcq), `C85_other_protocols` (pcq) |
| C86 | After the ruleset has been reloaded letmeinfwd restores its rules | partial | `C86_emptied_iff` (pcq), `C86_restored_partial` (pcq), `C86_not_restored` (pcq), `C86_locked_out` (pcq), `C86_repeat_acked` (pcq) |
| C87 | A tag that fits two texts is a SHA3-256 collision | proved | `C87_collision` (pq), `C87_tag_binds` (pcq), `C87_collision_in_run` (pq), `C87_padding` (pq) |
| C88 | Configured times are what the file says | proved | `C88_accepted` (pcq), `C88_meaning` (pcq), `C88_accuracy` (pcq), `C88_negative` (pcq), `C88_exact` (pcq), `C88_whole` (pcq), `C88_monotone` (pcq), `C88_configured` (pcq) |
| C89 | Address literals are read as the addresses they denote | proved | `C89_meaning` (pcq), `C89_unambiguous` (pcq), `C89_round_trip` (pcq), `C89_characters` (pcq), `C89_lookups` (pcq), `C89_knock` (pcq) |
| C90 | What nft is told is what letmeinfwd meant | proved | `C90_values` (pcq), `C90_commands` (pcq), `C90_unambiguous` (pcq), `C90_one_line` (pcq), `C90_own_chain` (pcq), `C90_lease` (pcq), `C90_rebuild` (pcq), `C90_comment_fits` (pcq) |
| C91 | letmeinfwd runs until there is a reason to stop | proved | `C91_keeps_running` (pcq), `C91_keeps_accepting` (pcq), `C91_stops` (pcq) |
| C92 | The daemons start when everything they need is there | proved | `C92_letmeind_starts` (pcq), `C92_letmeinfwd_starts` (pcq) |
| C93 | The configurations that can be written down are exactly the valid ones | proved | `C93_expressible` (pcq), `C93_seconds` (pcq) |
| C94 | Layout, order and blanks in a configuration file do not matter | proved | `C94_same_settings` (pcq), `C94_any_order` (pcq), `C94_layout` (pcq) |
| C95 | The tags are HMAC-SHA3-256 as the standards define it | proved | `C95_sha3` (pcq), `C95_hmac` (pcq), `C95_check` (pcq), `C95_check_knock` (pcq), `C95_collision` (pcq) |
| C96 | letmeinfwd's exit status tells whether the rules are gone | proved | `C96_status` (pcq), `C96_ended` (pcq), `C96_success_clean` (pcq), `C96_left` (pcq) |
| C97 | A signal to terminate lets letmeinfwd remove its rules at any time | partial | `C97_killed_iff` (pcq), `C97_undisturbed` (pcq), `C97_handled_partial` (pcq), `C97_negation` (pcq) |
| C98 | A host name that a name server knows is found | partial | `C98_found_iff` (pcq), `C98_known_found_partial` (pcq), `C98_not_invented` (pq), `C98_negation` (pcq) |
| C99 | The number of firewall rules is limited | partial | `C99_bound_partial` (pcq), `C99_rules_per_address` (pcq), `C99_negation` (pcq) |
| C100 | Nothing an earlier run of letmeinfwd has opened stays open | proved | `C100_restart` (pcq), `C100_start` (pcq), `C100_renamed` (pcq) |
| C101 | Another letmeinfwd started by mistake does not change what is open | partial | `C101_nothing_more_partial` (pcq), `C101_not_noticed` (pcq), `C101_negation` (pcq) |
| C102 | A running letmeind stays connected to letmeinfwd | partial | `C102_served_partial` (pcq), `C102_port_in_use` (pcq), `C102_disturbed_iff` (pcq), `C102_fwd_start` (pcq), `C102_negation` (pcq) |
| C103 | Only a running letmeind is served by letmeinfwd | partial | `C103_last_start_partial` (pcq), `C103_running_iff` (pcq), `C103_negation` (pcq) |
| C104 | Accepting ahead changes nothing | proved | `C104_refines` (pq), `C104_complete` (pq), `C104_one_ahead` (pq), `C104_sigterm` (pq) |
| C105 | Datagrams delivered twice do no harm | partial | `C105_success_exact` (pcq), `C105_no_copies_partial` (pcq), `C105_succeeds_iff` (pcq), `C105_negation` (pq) |
| C106 | Installing keeps keys and programs safe | partial | `C106_server_partial` (pcq), `C106_programs` (pcq), `C106_server_steps` (pcq), `C106_keys_kept` (pcq), `C106_client_open` (pcq), `C106_negation` (pcq) |
| C107 | Restarting letmeind puts an edited configuration into effect | partial | `C107_knock_iff` (pcq), `C107_same_firewall` (pcq), `C107_restart_partial` (pcq), `C107_negation` (pcq) |
| C108 | letmeind over UDP is no amplifier | proved | `C108_session` (pcq), `C108_datagrams` (pcq), `C108_no_amplification` (pcq), `C108_bound_reached` (pq) |
| C109 | The UDP server opens ports only for peers that authenticated from their own address | proved | `C109_open` (pcq), `C109_two_datagrams_each` (pcq) |
| C110 | Every message has a salt and every Challenge a token of its own | proved | `C110_server` (pcq), `C110_client` (pcq), `C110_token` (pcq), `C110_never_reused` (pcq) |
| C111 | The communication stops at the first message that is not allowed | partial | `C111_client_iff` (pcq), `C111_server` (pcq), `C111_silence` (pcq), `C111_client_negation` (pq), `C111_client_partial` (pcq) |
| C112 | A key is used for its user's tags only | proved | `C112_server` (pq), `C112_client` (pq), `C112_fwd` (pcq), `C112_start` (pcq), `C112_other_keys` (pcq) |
| C113 | A fresh installation lets nobody in | proved | `C113_named_ports` (pcq), `C113_loaded` (pcq), `C113_firewall` (pcq), `C113_letmeind` (pcq), `C113_client` (pcq), `C113_example_keys` (pcq), `C113_examples` (pcq) |
| C114 | Access that was revoked ends in time | proved | `C114_revoked` (pcq), `C114_port_closed` (pcq), `C114_restart_letmeinfwd` (pcq), `C114_not_at_once` (pcq) |
| C115 | What the programs print about a configuration does not tell the keys | proved | `C115_keys_not_printed` (pcq), `C115_printed_iff` (pcq), `C115_kinds` (pcq) |
| C116 | Restarting the units as documented leaves the control port open | partial | `C116_iff` (pcq), `C116_who` (p), `C116_order` (pq), `C116_reload_partial` (pcq), `C116_after` (pq), `C116_negation` (pcq) |
| C117 | A knock that failed has opened nothing | partial | `C117_no_effect` (pcq), `C117_refused_partial` (pcq), `C117_negation` (pcq), `C117_negation_lost` (pcq) |
| C118 | A service is reported as started exactly when it is up | partial | `C118_lm_result` (pcq), `C118_fwd_result` (pcq), `C118_lm_steps` (pcq), `C118_lm_partial` (pcq), `C118_lm_iff` (pcq), `C118_fwd_steps` (pcq), `C118_fwd_partial` (pcq), `C118_fwd_iff` (pcq), `C118_pulled` (p), `C118_negation_early` (pcq), `C118_negation_never` (pcq) |
| C119 | After install-server.sh or restart.sh letmein runs, now and after the next boot | partial | `C119_install` (pq), `C119_restart_partial` (pq), `C119_restart_disables` (p), `C119_negation` (p), `C119_negation_failed` (p), `C119_fixed` (pq) |
| C120 | Leaving an option out means its documented default | proved | `C120_default` (pcq), `C120_required` (pcq) |
| C121 | Nobody but root and letmeind can forge letmeind's pid file | partial | `C121_unforgeable_partial` (pcq), `C121_fresh_iff` (pcq), `C121_stays` (pcq), `C121_negation_umask` (pcq), `C121_negation_kept` (pcq) |
| C122 | Only root and the user that create-user.sh makes can read the server's keys | partial | `C122_account` (pcq), `C122_busy` (pcq), `C122_readers_partial` (pcq), `C122_negation` (pcq), `C122_negation_failed` (pcq) |
| C123 | The port named on the command line is the port that opens | partial | `C123_asks` (pq), `C123_iff` (pcq), `C123_named_partial` (pcq), `C123_negation` (pcq) |
| C124 | Every resource of a configuration that loads can be opened by the users it is for | partial | `C124_iff` (pcq), `C124_usable_partial` (pcq), `C124_negation_control` (pcq), `C124_negation_nokey` (pcq) |
| C125 | The usage example of README.md opens the ssh port, to holders of the generated key only | proved | `C125_files` (pcq), `C125_knock` (pcq), `C125_nobody_else` (pcq), `C125_second_restart` (pcq), `C125_possible` (pcq) |
| C126 | Uninstalling as documented removes letmein completely | partial | `C126_files` (pcq), `C126_units` (p), `C126_removed_partial` (pcq), `C126_account` (pcq), `C126_negation` (pcq) |
| C127 | Other implementations of the documented protocol work together with letmein | proved | `C127_server` (pcq), `C127_server_only` (pcq), `C127_client` (pcq), `C127_goaway` (pcq), `C127_server_possible` (pcq), `C127_client_possible` (pcq) |
| C128 | letmeinfwd runs the configured nft only, with fixed command lines, and only when it has to | proved | `C128_same_daemon` (pcq), `C128_command_lines` (pcq), `C128_how_often` (pcq), `C128_only_if_needed` (pcq), `C128_no_other_way` (pcq), `C128_which_file` (pcq), `C128_configured` (pcq), `C128_values` (pcq) |
| C129 | The daemons can be started at the same time | proved | `C129_all_succeed` (pq), `C129_success_means_there` (p), `C129_nothing_else` (p), `C129_alone` (pcq), `C129_simpler_model` (pcq) |
| C130 | The project's own tests pass, up to a race in the script | partial | `C130_files` (pcq), `C130_stub_answers` (pcq), `C130_stub_suffices` (pcq), `C130_daemons_start` (pcq), `C130_pidfile_partial` (pcq), `C130_pidfile_race` (pcq), `C130_genkey` (pcq), `C130_knock` (pcq), `C130_possible` (pcq) |
| C131 | Knocks at the same time do not hinder each other | proved | `C131_among_strangers` (pcq), `C131_all_succeed` (pcq), `C131_completed` (pcq) |
| C132 | Time limits do not strike while everybody is prompt | proved | `C132_prompt_knock_succeeds` (pcq), `C132_bounds_exact` (pcq) |
| C133 | Who knocks again in time keeps the port open without a gap | proved | `C133_no_gap` (pcq), `C133_late_closes` (pcq) |
| C134 | An interrupted knock can be repeated at once | partial | `C134_same_port_refused` (pcq), `C134_negation` (pcq), `C134_new_session_partial` (pcq) |
| C135 | A build whose programs need unexpected libraries fails | partial | `C135_last_line_unchecked` (pcq), `C135_only_last_program` (pcq), `C135_negation` (pcq), `C135_build_checked_partial` (pcq) |
| C136 | Running the client at intervals keeps the port open without a gap | proved | `C136_no_gap_between_runs` (pcq), `C136_series_exists` (pcq), `C136_bound_exact` (pcq) |
| C137 | The Windows build reports success only if every step has succeeded | partial | `C137_negation` (p), `C137_success_iff` (pcq), `C137_steps_partial` (pcq) |
| C138 | A replayed Knock is answered, but recorded messages open nothing | proved | `C138_replay_is_answered` (pcq), `C138_recorded_opens_nothing` (pcq), `C138_policy_basic_auth_is_passed` (pcq) |
| C139 | The error policy basic-auth is enough for stealth | partial | `C139_enough_partial` (pcq), `C139_full_auth_not_weaker` (pcq), `C139_exact` (pcq), `C139_negation` (pq) |
