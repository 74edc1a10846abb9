import Verif.Model.RunDir

/-!
# Model: creating the run directories while others work on the same paths

`/repo/letmeind/src/main.rs:42-64` and `/repo/letmeinfwd/src/main.rs:51-82`: `create_dir_if_not_exists` with `std::fs::create_dir_all`, one system call
after the other, so that other processes can act between them. Here missing parents are created, which `Model/RunDir` leaves out. Symbolic links,
permissions to search a directory, `.` and `..` are not modelled.
-/

namespace Letmein

/-- An absolute path, `opts.rundir.join("letmeind")` of `/repo/letmeind/src/main.rs:61`: its components, the last one first. `[]` is the root directory. -/
abbrev DirPath := List Str

/-- What a path names, as far as `/repo/letmeind/src/main.rs:48-54` distinguishes it. -/
inductive Entry where
  | dir
  | other
  deriving DecidableEq

/-- The entries of the file system that `/repo/letmeind/src/main.rs:44` looks at. -/
abbrev Tree := DirPath → Option Entry

/-- The outcome of looking up a path, see `/repo/letmeind/src/main.rs:44`: `noent` is `ENOENT`, `notdir` is `ENOTDIR`. -/
inductive Walk where
  | found (e : Entry)
  | noent
  | notdir
  deriving DecidableEq

/-- Looking up a path component by component, see `/repo/letmeind/src/main.rs:44`. The root directory is always there. -/
def Tree.walk (t : Tree) : DirPath → Walk
  | [] => .found .dir
  | c :: parent =>
    match t.walk parent with
    | .found .dir => match t (c :: parent) with | some e => .found e | none => .noent
    | .found .other => .notdir
    | .noent => .noent
    | .notdir => .notdir

/-- The outcome of `mkdir`, as far as `create_dir_all` (`/repo/letmeind/src/main.rs:46`) distinguishes it. -/
inductive MkdirRes where
  | ok
  | noent
  | otherErr
  deriving DecidableEq

/-- `mkdir(2)` of `/repo/letmeind/src/main.rs:46`; `perm`: the process may create this directory, and there is space for it. -/
def Tree.mkdir (perm : DirPath → Bool) (t : Tree) : DirPath → MkdirRes × Tree
  | [] => (.otherErr, t)
  | c :: parent =>
    match t.walk parent with
    | .found .dir =>
      match t (c :: parent) with
      | some _ => (.otherErr, t)
      | none => if perm (c :: parent) then (.ok, fun q => if q = c :: parent then some .dir else t q) else (.otherErr, t)
    | .noent => (.noent, t)
    | _ => (.otherErr, t)

/-- `stat(2)`, `metadata` of `/repo/letmeind/src/main.rs:44` and `is_dir` in `create_dir_all`: `none` is an error. -/
def Tree.stat (t : Tree) (p : DirPath) : Option Entry :=
  match t.walk p with
  | .found e => some e
  | _ => none

/-- Code that makes the system calls above, one after the other, as that of `/repo/letmeind/src/main.rs:43-57` does. `ret`: whether it succeeds. -/
inductive DirProg where
  | ret (ok : Bool)
  | mkdir (p : DirPath) (k : MkdirRes → DirProg)
  | stat (p : DirPath) (k : Option Entry → DirProg)

/-- The end of `create_dir_all` (`/repo/letmeind/src/main.rs:46`) on an error: fine if the path is a directory now. -/
def checkIsDir (p : DirPath) (k : Bool → DirProg) : DirProg := .stat p fun s => k (s = some .dir)

/-- `std::fs::create_dir_all` (`/repo/letmeind/src/main.rs:46`, `/repo/letmeinfwd/src/main.rs:55`), after `DirBuilder::create_dir_all` of the standard library;
`k` continues. -/
def createDirAll : DirPath → (Bool → DirProg) → DirProg
  | [], k => .mkdir [] fun
    | .ok => k true
    | .noent => k false
    | .otherErr => checkIsDir [] k
  | c :: parent, k => .mkdir (c :: parent) fun
    | .ok => k true
    | .noent => createDirAll parent fun
      | false => k false
      | true => .mkdir (c :: parent) fun
        | .ok => k true
        | _ => checkIsDir (c :: parent) k
    | .otherErr => checkIsDir (c :: parent) k

/-- `/repo/letmeind/src/main.rs:43-57`, `/repo/letmeinfwd/src/main.rs:52-66` `create_dir_if_not_exists`. -/
def makeDir (p : DirPath) : DirProg := .stat p fun
  | none => createDirAll p .ret
  | some .dir => .ret true
  | some .other => .ret false

/-- The next system call of a process, see `/repo/letmeind/src/main.rs:43-57`. -/
def DirProg.step (perm : DirPath → Bool) (t : Tree) : DirProg → DirProg × Tree
  | .ret b => (.ret b, t)
  | .mkdir p k => let r := t.mkdir perm p; (k r.1, r.2)
  | .stat p k => (k (t.stat p), t)

/-- Processes at `/repo/letmeind/src/main.rs:62` or `/repo/letmeinfwd/src/main.rs:81`, and the file system. -/
structure DirSys where
  tree : Tree
  procs : Nat → DirProg

/-- What happens next: a process at `/repo/letmeind/src/main.rs:43-57` makes a system call, or someone else has changed the file system. -/
inductive DirEv where
  | run (i : Nat)
  | others (t : Tree)

/-- One event, see `/repo/letmeind/src/main.rs:43-57`. -/
def DirSys.step (perm : DirPath → Bool) (s : DirSys) : DirEv → DirSys
  | .run i =>
    let r := (s.procs i).step perm s.tree
    { tree := r.2, procs := fun j => if j = i then r.1 else s.procs j }
  | .others t => { s with tree := t }

/-- A history, see `/repo/letmeind/src/main.rs:43-57`. -/
def DirSys.run (perm : DirPath → Bool) (s : DirSys) : List DirEv → DirSys
  | [] => s
  | e :: rest => (s.step perm e).run perm rest

/-- The processes, each about to create the directory it needs (`/repo/letmeind/src/main.rs:62`, `/repo/letmeinfwd/src/main.rs:81`). -/
def DirSys.init (t : Tree) (paths : Nat → DirPath) : DirSys := ⟨t, fun i => makeDir (paths i)⟩

/-- A process of `/repo/letmeind/src/main.rs:43-57` on its own, up to its end. -/
def DirProg.alone (perm : DirPath → Bool) : DirProg → Tree → Bool × Tree
  | .ret b, t => (b, t)
  | .mkdir p k, t => (k (t.mkdir perm p).1).alone perm (t.mkdir perm p).2
  | .stat p k, t => (k (t.stat p)).alone perm t

end Letmein
