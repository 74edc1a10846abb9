import Verif.Model.Base
import Verif.Model.Text

/-!
# Model: create-user.sh

`/repo/create-user.sh`, run by root: the user and the group letmeind are deleted and made anew. `/etc/passwd` and `/etc/group` are lists. `userdel`,
`groupdel`, `groupadd` and `useradd` are the programs of the shadow utilities: `userdel` takes the user out of the member lists and, if
`USERGROUPS_ENAB` is set, removes the group of that name unless it is another user's primary group; `groupdel` refuses to remove a user's primary
group; `groupadd` and `useradd` refuse a name that exists and take an id that is free. Each may also fail for other reasons (a process of the user is
running, files are locked). Not modelled: shadow passwords, home directories, name services other than files; `stop_daemons` (`:34-40`), whose
results are ignored and which concerns the units (`Model/Services.lean`).
-/

namespace Letmein

/-- A line of `/etc/passwd`. -/
structure Account where
  name : Str
  uid : UInt32
  gid : UInt32
  deriving DecidableEq

/-- A line of `/etc/group`. -/
structure AccGroup where
  name : Str
  gid : UInt32
  members : List Str
  deriving DecidableEq

structure Accounts where
  users : List Account
  groups : List AccGroup
  deriving DecidableEq

/-- `/repo/create-user.sh:44-46,51-52` the name of both. -/
def lmName : Str := "letmeind".toList

/-- How the script's commands fare: whether they fail for a reason of their own, and the ids they choose. -/
structure CreateEnv where
  root : Bool
  userdelOk : Bool
  /-- `USERGROUPS_ENAB` in `/etc/login.defs` -/
  userGroups : Bool
  groupdelOk : Bool
  groupaddOk : Bool
  newGid : UInt32
  useraddOk : Bool
  newUid : UInt32

/-- `/repo/create-user.sh:45` `userdel letmeind`; its result is ignored. -/
def userdelCall (env : CreateEnv) (a : Accounts) : Accounts :=
  if env.userdelOk ∧ ∃ u ∈ a.users, u.name = lmName then
    let users := a.users.filter fun u => u.name ≠ lmName
    let groups := a.groups.map fun g => { g with members := g.members.filter fun m => m ≠ lmName }
    { users, groups := if env.userGroups then groups.filter fun g => g.name ≠ lmName ∨ ∃ u ∈ users, u.gid = g.gid else groups }
  else a

/-- `/repo/create-user.sh:46` `groupdel letmeind`; its result is ignored. -/
def groupdelCall (env : CreateEnv) (a : Accounts) : Accounts :=
  if env.groupdelOk then { a with groups := a.groups.filter fun g => g.name ≠ lmName ∨ ∃ u ∈ a.users, u.gid = g.gid } else a

/-- `/repo/create-user.sh:13-18,51` `groupadd --system letmeind`. -/
def groupaddCall (env : CreateEnv) (a : Accounts) : Option Accounts :=
  if env.groupaddOk ∧ (∀ g ∈ a.groups, g.name ≠ lmName) ∧ ∀ g ∈ a.groups, g.gid ≠ env.newGid then
    some { a with groups := a.groups ++ [⟨lmName, env.newGid, []⟩] }
  else none

/-- `/repo/create-user.sh:20-25,52` `useradd --system -s /usr/sbin/nologin -d /nonexistent -M -N -g letmeind letmeind`. -/
def useraddCall (env : CreateEnv) (a : Accounts) : Option Accounts :=
  match a.groups.find? fun g => g.name = lmName with
  | none => none
  | some g =>
    if env.useraddOk ∧ (∀ u ∈ a.users, u.name ≠ lmName) ∧ ∀ u ∈ a.users, u.uid ≠ env.newUid then
      some { a with users := a.users ++ [⟨lmName, env.newUid, g.gid⟩] }
    else none

/-- `/repo/create-user.sh:8-11,55-58` the script: whether it comes to its end, and the accounts afterwards. -/
def createUser (env : CreateEnv) (a : Accounts) : R Unit × Accounts :=
  if !env.root then (.err, a)
  else
    let a := groupdelCall env (userdelCall env a)
    match groupaddCall env a with
    | none => (.err, a)
    | some a =>
      match useraddCall env a with
      | none => (.err, a)
      | some a => (.ok (), a)

end Letmein
