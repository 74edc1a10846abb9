import Verif.Model.RunDir

/-!
# Model: the installers

`/repo/install-server.sh`, `/repo/install-client.sh` and the functions of `/repo/scripts/lib.sh` that they use, as sequences of system calls
of root on files with owner, group and mode (`Model/RunDir.lean`). A path is its absolute text. Each call may fail; `die` ends the script.

`install`, `chown` and `chmod` are the ones of GNU coreutils: `install -d` creates the directory with mode 0700 or takes an
existing one, then sets owner and mode; `install` of a file removes what is at the destination, creates the file with mode 0600,
then sets owner and mode. Not modelled: symbolic links, a directory in place of an installed file (taken as failure), missing parents, other processes working on the same paths, the units' start.
-/

namespace Letmein

/-- What an installer finds: whether the `i`th call succeeds, the group letmeind, and the files it copies. -/
structure InstEnv where
  ok : Nat → Bool
  gid : UInt32
  /-- `/repo/install-server.sh:103` `$target/` and `$basedir/`: contents by name -/
  src : Str → Str

/-- The outcomes of the calls of the `k`th command of a script. -/
def InstEnv.at (env : InstEnv) (k : Nat) : Nat → Bool := fun i => env.ok (10 * k + i)

/-- `mkdir` as `install -d` calls it. -/
def instMkdirCall (ok : Bool) (path : Str) : FsM Unit := fsCall ok fun fs =>
  match fs path with
  | none => some (fs.put path (some ⟨.dir, 0, 0, 0o700⟩))
  | some _ => none

/-- `open` with `O_CREAT | O_EXCL` and copying, as `install` does; nobody but root can see how far it has got. -/
def instCopyCall (ok : Bool) (path : Str) (content : Str) : FsM Unit := fsCall ok fun fs =>
  match fs path with
  | none => some (fs.put path (some ⟨.file content, 0, 0, 0o600⟩))
  | some _ => none

/-- `install -d`: the directory exists afterwards (`/repo/scripts/lib.sh:27`). -/
def instDirMake (ok : Bool) (path : Str) : FsM Unit := do
  match ← fsStat path with
  | none => instMkdirCall ok path
  | some n => if n.kind ≠ .dir then FsM.fail else pure ()

/-- `/repo/scripts/lib.sh:24-28` `do_install -o root -g .. -m .. -d path`. -/
def instDir (ok : Nat → Bool) (path : Str) (gid : UInt32) (mode : Nat) : FsM Unit := do
  instDirMake (ok 0) path
  chownCall (ok 1) path 0 gid
  chmodCall (ok 2) path mode

/-- `install`: what is at the destination is removed (`/repo/scripts/lib.sh:27`). A directory there: the file would be put into it. -/
def instFileClear (ok : Bool) (path : Str) : FsM Unit := do
  match ← fsStat path with
  | none => pure ()
  | some n => if n.kind = .dir then FsM.fail else unlinkCall ok path

/-- `/repo/scripts/lib.sh:24-28` `do_install -o root -g .. -m .. source path`. -/
def instFile (ok : Nat → Bool) (content : Str) (path : Str) (gid : UInt32) (mode : Nat) : FsM Unit := do
  instFileClear (ok 0) path
  instCopyCall (ok 1) path content
  chownCall (ok 2) path 0 gid
  chmodCall (ok 3) path mode

/-- `/repo/install-server.sh:24-26`, `/repo/install-client.sh:16-18` -/
def optBinPath : Str := "/opt/letmein/bin".toList
/-- `/repo/install-server.sh:28-30`, `/repo/install-client.sh:20-22` -/
def optEtcPath : Str := "/opt/letmein/etc".toList
/-- `/repo/install-server.sh:35-42` the server's configuration with the keys. -/
def serverConfFile : Str := "/opt/letmein/etc/letmeind.conf".toList
/-- `/repo/install-client.sh:27-34` the client's configuration with the keys. -/
def clientConfFile : Str := "/opt/letmein/etc/letmein.conf".toList
/-- `/repo/install-server.sh:48-51` -/
def fwdBinFile : Str := "/opt/letmein/bin/letmeinfwd".toList
/-- `/repo/install-server.sh:53-56` -/
def fwdServiceFile : Str := "/etc/systemd/system/letmeinfwd.service".toList
/-- `/repo/install-server.sh:58-61` -/
def fwdSocketFile : Str := "/etc/systemd/system/letmeinfwd.socket".toList
/-- `/repo/install-server.sh:69-72` -/
def lmBinFile : Str := "/opt/letmein/bin/letmeind".toList
/-- `/repo/install-server.sh:74-77` -/
def lmServiceFile : Str := "/etc/systemd/system/letmeind.service".toList
/-- `/repo/install-server.sh:79-82` -/
def lmSocketFile : Str := "/etc/systemd/system/letmeind.socket".toList
/-- `/repo/install-client.sh:40-43` -/
def clientBinFile : Str := "/opt/letmein/bin/letmein".toList

/-- `/repo/install-server.sh:33-44` `install_conf`. -/
def installServerConf (env : InstEnv) : FsM Unit := do
  match ← fsStat serverConfFile with
  | some _ => do
    chownCall (env.at 3 0) serverConfFile 0 env.gid
    chmodCall (env.at 3 1) serverConfFile 0o640
  | none => instFile (env.at 4) (env.src serverConfFile) serverConfFile env.gid 0o640

/-- `/repo/install-server.sh:46-65` `install_letmeinfwd`. -/
def installFwd (env : InstEnv) : FsM Unit := do
  instFile (env.at 5) (env.src fwdBinFile) fwdBinFile 0 0o755
  instFile (env.at 6) (env.src fwdServiceFile) fwdServiceFile 0 0o644
  instFile (env.at 7) (env.src fwdSocketFile) fwdSocketFile 0 0o644
  fsOther (env.at 8 0)
  fsOther (env.at 8 1)

/-- `/repo/install-server.sh:67-86` `install_letmeind`. -/
def installLmd (env : InstEnv) : FsM Unit := do
  instFile (env.at 9) (env.src lmBinFile) lmBinFile 0 0o755
  instFile (env.at 10) (env.src lmServiceFile) lmServiceFile 0 0o644
  instFile (env.at 11) (env.src lmSocketFile) lmSocketFile 0 0o644
  fsOther (env.at 12 0)
  fsOther (env.at 12 1)

/-- `/repo/install-server.sh:105-111`; the entry checks (`:8-20`) may fail, the results of `stop_services` do not matter
(`/repo/scripts/lib.sh:48-64`), `start_services` (`/repo/scripts/lib.sh:66-72`) may fail. -/
def installServer (env : InstEnv) : FsM Unit := do
  fsOther (env.at 0 0)
  instDir (env.at 1) optBinPath 0 0o755
  instDir (env.at 2) optEtcPath 0 0o755
  installServerConf env
  installFwd env
  installLmd env
  fsOther (env.at 13 0)

/-- `/repo/install-client.sh:25-36` `install_conf`. -/
def installClientConf (env : InstEnv) : FsM Unit := do
  match ← fsStat clientConfFile with
  | some _ => do
    chownCall (env.at 3 0) clientConfFile 0 0
    chmodCall (env.at 3 1) clientConfFile 0o644
  | none => instFile (env.at 4) (env.src clientConfFile) clientConfFile 0 0o644

/-- `/repo/install-client.sh:63-66`; the entry checks (`:8-12`) may fail; `:38-44` `install_letmein`. -/
def installClient (env : InstEnv) : FsM Unit := do
  fsOther (env.at 0 0)
  instDir (env.at 1) optBinPath 0 0o755
  instDir (env.at 2) optEtcPath 0 0o755
  installClientConf env
  instFile (env.at 5) (env.src clientBinFile) clientBinFile 0 0o755

end Letmein
