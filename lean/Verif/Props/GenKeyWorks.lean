import Verif.Props.ConfShow
import Verif.Props.Joint
import Verif.Props.Knock

/-!
# A key made by `letmein gen-key` works (C72)

The way from the printed line to the opened port: the line is put into the file of the server and into the file of the client, both
programs load their file, the client knocks.
-/

namespace Letmein.Props
open Letmein Prog Spec

/-- The lines `ls'` are the lines `ls` with `line` put below a header `[KEYS]`. -/
def KeyLineAdded (line : Str) (ls ls' : List Str) : Prop :=
  ∃ a h b, HeaderLine h "KEYS".toList ∧ ls = a ++ h :: b ∧ ls' = a ++ h :: line :: b

/-- The file `s` is well formed and is loaded as `c'`, which has no key for `u`; `s'` is the file with the line added. -/
structure AddedTo (f64 : F64Secs) (order : IterOrder) (line : Str) (u : UserId) (variant : ConfigVariant) (path s s' : Str) (c' : Config) : Prop where
  wellFormed : ∃ d, FileDoc (.text s) d
  loads : (Config.new variant).load f64 order path (.text s) = (.ok (), c')
  noKey : c'.key u = none
  added : ∃ ls ls', TextLines s ls ∧ TextLines s' ls' ∧ KeyLineAdded line ls ls'

/-- **C72**. `gen-key` prints a line for user `u`. The line is put below `[KEYS]` in the server's file and in the client's file, neither
of which has a key for `u` yet. Then

* both files load, with the same settings as before apart from the new key;
* `letmein knock` for this user finds the key and gets as far as the client's own resources allow, with `u` and exactly this key;
* for each resource that the server's file grants to `u`, no run of the two programs exceeds 17 steps, none gets stuck, and each
  complete one ends with success on both sides and the one request to letmeinfwd for the resource's port. -/
theorem C72_generated_key_works {f64 : F64Secs} {order : IterOrder} (ho : IsOrder order) {raw : Option (Arr KEY_SIZE)} {key : Key}
    (hk : secureRandom KEY_SIZE raw = .ok key) {conf : Config} {user : Option UserId} {u : UserId}
    (hu : user = some u ∨ (user = none ∧ conf.defaultUser = u)) {pathS sS sS' pathC sC sC' : Str} {cS cC : Config}
    (hS : AddedTo f64 order (genkeyLine conf user key) u .Server pathS sS sS' cS)
    (hC : AddedTo f64 order (genkeyLine conf user key) u .Client pathC sC sC' cC) :
    ∃ cS' cC', (Config.new .Server).load f64 order pathS (.text sS') = (.ok (), cS') ∧
      (Config.new .Client).load f64 order pathC (.text sC') = (.ok (), cC') ∧
      SameConf cS' { cS with keys := (u, key) :: cS.keys } ∧ SameConf cC' { cC with keys := (u, key) :: cC.keys } ∧
      (∀ parseIp dns opens exchange server port srv crypt,
        runKnock parseIp dns opens exchange cC' server port (some u) srv crypt =
          match cC'.resourceIdByPort port (some u) with
          | none => ([], .err)
          | some r => knockFamilies parseIp server.addr server.addrMode
              (knockOnce parseIp dns opens (exchange u r key) server.addr (server.toControlPort cC) srv crypt)) ∧
      ∀ mac peer r res, Granted cS u r res → (res.tcp = true ∨ res.udp = true) →
        ∀ n J, JSteps n (Joint.init mac cS' peer u r key) J →
          n ≤ 17 ∧ ((∃ J', JStep J J') ∨ (n = 17 ∧ BothSucceeded J ∧
            ∃ pt, opensTcp pt = res.tcp ∧ opensUdp pt = res.udp ∧ J.reqs = [FwMessage.newOpen peer pt res.port])) := by
  have load : ∀ {variant path s s' c}, AddedTo f64 order (genkeyLine conf user key) u variant path s s' c →
      ∃ c'', (Config.new variant).load f64 order path (.text s') = (.ok (), c'') ∧ SameConf c'' { c with keys := (u, key) :: c.keys } := by
    intro variant path s s' c h
    obtain ⟨ls, ls', h1, h2, a, hd, b, h3, rfl, rfl⟩ := h.added
    exact C39_line_is_loaded ho hk hu h3 h1 h2 h.wellFormed h.loads h.noKey
  have hnew : ∀ c : Config, ({ c with keys := (u, key) :: c.keys } : Config).key u = some key := by
    intro c; simp [Config.key, assocGet]
  obtain ⟨cS', l1, s1⟩ := load hS
  obtain ⟨cC', l2, s2⟩ := load hC
  refine ⟨cS', cC', l1, l2, s1, s2, ?_, ?_⟩
  · intro parseIp dns opens exchange server port srv crypt
    have h1 : cC'.key u = some key := by rw [s2.keys, hnew]
    have h2 : server.toControlPort cC' = server.toControlPort cC := by
      unfold KnockServer.toControlPort; rw [s2.port]
    unfold runKnock
    simp only [Option.getD_some, h1, h2]
    rfl
  · intro mac peer r res hg hp n J hs
    refine C14_every_run_succeeds mac cS' peer u r key res (by rw [s1.keys, hnew]) ⟨?_, hg.allowed, ?_⟩ hp n J hs
    · rw [s1.resources]; exact hg.configured
    · rw [s1.port]; exact hg.notControl

/-- The example file with the line for user 2 below `[KEYS]`. -/
def exampleTextAdded : Str :=
  (((lines exampleText).take 8 ++ genkeyLine exampleLoaded (some ⟨2⟩) genkeyExampleKey :: (lines exampleText).drop 8).map (· ++ ['\n'])).flatten

theorem exampleTextAdded_lines : lines exampleTextAdded =
    (lines exampleText).take 8 ++ genkeyLine exampleLoaded (some ⟨2⟩) genkeyExampleKey :: (lines exampleText).drop 8 := by decide +kernel

/-- The hypotheses hold for server and client with the example file and user 2, who is granted resource 7. -/
example : AddedTo noF64 id (genkeyLine exampleLoaded (some ⟨2⟩) genkeyExampleKey) ⟨2⟩ .Server "/etc/letmeind.conf".toList exampleText exampleTextAdded exampleLoaded ∧
    (∃ cC, AddedTo noF64 id (genkeyLine exampleLoaded (some ⟨2⟩) genkeyExampleKey) ⟨2⟩ .Client "/etc/letmein.conf".toList exampleText exampleTextAdded cC ∧
      cC.resourceIdByPort 22 (some ⟨2⟩) = some ⟨7⟩) ∧
    ∃ res, Granted exampleLoaded ⟨2⟩ ⟨7⟩ res ∧ (res.tcp = true ∨ res.udp = true) := by
  have hd := C54_server_needs_document rfl example_load
  have ha : ∃ ls ls', TextLines exampleText ls ∧ TextLines exampleTextAdded ls' ∧ KeyLineAdded (genkeyLine exampleLoaded (some ⟨2⟩) genkeyExampleKey) ls ls' :=
    ⟨_, _, textLines_iff.2 rfl, textLines_iff.2 exampleTextAdded_lines, (lines exampleText).take 7, "[KEYS]".toList, (lines exampleText).drop 8,
      ⟨[], [], by decide, by simp [Blank], by simp [Blank], by decide⟩, by decide +kernel, by decide +kernel⟩
  refine ⟨⟨hd, example_load, by decide, ha⟩, ⟨((Config.new .Client).load noF64 id "/etc/letmein.conf".toList (.text exampleText)).2,
    ⟨hd, by decide +kernel, by decide +kernel, ha⟩, by decide +kernel⟩, _, ⟨rfl, by decide, by decide⟩, by decide⟩

end Letmein.Props
