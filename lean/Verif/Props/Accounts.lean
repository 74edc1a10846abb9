import Verif.Model.Accounts
import Verif.Props.Install

/-!
# C122: the user that create-user.sh makes
-/

namespace Letmein.Spec
open Letmein

/-- The groups that a process of the user has after login: the primary group and those that list the user. -/
def gidsOf (a : Accounts) (u : Account) : List UInt32 := u.gid :: ((a.groups.filter fun g => u.name ∈ g.members).map (·.gid))

/-- Every user's primary group exists. -/
def PrimaryExists (a : Accounts) : Prop := ∀ u ∈ a.users, ∃ g ∈ a.groups, g.gid = u.gid

end Letmein.Spec

namespace Letmein.Props
open Letmein Spec

theorem userdel_users {env : CreateEnv} {a : Accounts} {u : Account} (hu : u.name ≠ lmName) : u ∈ (userdelCall env a).users ↔ u ∈ a.users := by
  unfold userdelCall
  split
  · simp [hu]
  · rfl

theorem groupdel_users (env : CreateEnv) (a : Accounts) : (groupdelCall env a).users = a.users := by
  unfold groupdelCall
  split <;> rfl

theorem del_primary {env : CreateEnv} {a : Accounts} (h : PrimaryExists a) : PrimaryExists (groupdelCall env (userdelCall env a)) := by
  have h1 : PrimaryExists (userdelCall env a) := by
    unfold userdelCall
    split
    · intro u hu
      simp only at hu ⊢
      obtain ⟨g, hg, e⟩ := h u (List.mem_filter.1 hu).1
      split
      · refine ⟨_, List.mem_filter.2 ⟨List.mem_map.2 ⟨g, hg, rfl⟩, ?_⟩, e⟩
        exact decide_eq_true (.inr ⟨u, hu, e.symm⟩)
      · exact ⟨_, List.mem_map.2 ⟨g, hg, rfl⟩, e⟩
    · exact h
  generalize userdelCall env a = b at *
  unfold groupdelCall
  split
  · intro u hu
    obtain ⟨g, hg, e⟩ := h1 u hu
    exact ⟨g, List.mem_filter.2 ⟨hg, decide_eq_true (.inr ⟨u, hu, e.symm⟩)⟩, e⟩
  · exact h1

theorem del_groups {env : CreateEnv} {a : Accounts} {n : Str} (hn : n ≠ lmName) (x : UInt32) (m : Str) (hm : m ≠ lmName) :
    (∃ g ∈ (groupdelCall env (userdelCall env a)).groups, g.name = n ∧ g.gid = x ∧ m ∈ g.members) ↔
      ∃ g ∈ a.groups, g.name = n ∧ g.gid = x ∧ m ∈ g.members := by
  have h1 : ∀ b : Accounts, (∃ g ∈ (groupdelCall env b).groups, g.name = n ∧ g.gid = x ∧ m ∈ g.members) ↔
      ∃ g ∈ b.groups, g.name = n ∧ g.gid = x ∧ m ∈ g.members := by
    intro b
    unfold groupdelCall
    split
    · constructor
      · rintro ⟨g, hg, h⟩
        exact ⟨g, (List.mem_filter.1 hg).1, h⟩
      · rintro ⟨g, hg, h⟩
        exact ⟨g, List.mem_filter.2 ⟨hg, decide_eq_true (.inl (by rw [h.1]; exact hn))⟩, h⟩
    · rfl
  rw [h1]
  unfold userdelCall
  split
  · simp only
    constructor
    · rintro ⟨g, hg, h2, h3, h4⟩
      have hg' : g ∈ a.groups.map fun g => { g with members := g.members.filter fun m => m ≠ lmName } := by
        split at hg
        · exact (List.mem_filter.1 hg).1
        · exact hg
      obtain ⟨g', h5, rfl⟩ := List.mem_map.1 hg'
      exact ⟨g', h5, h2, h3, (List.mem_filter.1 h4).1⟩
    · rintro ⟨g, hg, h2, h3, h4⟩
      have hg' : ({ g with members := g.members.filter fun m => m ≠ lmName } : AccGroup) ∈
          a.groups.map fun g => { g with members := g.members.filter fun m => m ≠ lmName } := List.mem_map.2 ⟨g, hg, rfl⟩
      refine ⟨{ g with members := g.members.filter fun m => m ≠ lmName }, ?_, h2, h3, List.mem_filter.2 ⟨h4, decide_eq_true hm⟩⟩
      split
      · exact List.mem_filter.2 ⟨hg', decide_eq_true (.inl (by rw [h2]; exact hn))⟩
      · exact hg'
  · rfl

/-- What the script has done if it came to its end. -/
theorem createUser_ok {env : CreateEnv} {a a' : Accounts} (h : createUser env a = (.ok (), a')) :
    ∃ b, b = groupdelCall env (userdelCall env a) ∧ (∀ g ∈ b.groups, g.name ≠ lmName) ∧ (∀ g ∈ b.groups, g.gid ≠ env.newGid) ∧
      (∀ u ∈ b.users, u.name ≠ lmName) ∧ (∀ u ∈ b.users, u.uid ≠ env.newUid) ∧
      a' = { users := b.users ++ [⟨lmName, env.newUid, env.newGid⟩], groups := b.groups ++ [⟨lmName, env.newGid, []⟩] } := by
  unfold createUser at h
  split at h
  · cases h
  · simp only at h
    refine ⟨_, rfl, ?_⟩
    generalize groupdelCall env (userdelCall env a) = b at *
    split at h
    · cases h
    · rename_i a1 h1
      split at h
      · cases h
      · rename_i a2 h2
        injection h with _ h
        subst h
        unfold groupaddCall at h1
        split at h1
        · rename_i hc
          injection h1 with h1
          subst h1
          unfold useraddCall at h2
          simp only at h2
          have hfind : (b.groups ++ [(⟨lmName, env.newGid, []⟩ : AccGroup)]).find? (fun g => g.name = lmName) = some ⟨lmName, env.newGid, []⟩ := by
            rw [List.find?_append, List.find?_eq_none.2]
            · rfl
            · intro g hg
              simpa using hc.2.1 g hg
          rw [hfind] at h2
          simp only at h2
          split at h2
          · rename_i hc'
            injection h2 with h2
            exact ⟨hc.2.1, hc.2.2, hc'.2.1, hc'.2.2, h2.symm⟩
          · cases h2
        · cases h1

/-- **C122** (accounts). If `create-user.sh` comes to its end, there is exactly one user letmeind and exactly one group letmeind, which is the user's
primary group; the ids are the ones chosen and no other user and no other group has them; nobody else is in the group; and the other users and
their memberships in other groups are what they were. -/
theorem C122_account {env : CreateEnv} {a a' : Accounts} (hp : PrimaryExists a) (h : createUser env a = (.ok (), a')) :
    (∀ u, (u ∈ a'.users ∧ u.name = lmName) ↔ u = ⟨lmName, env.newUid, env.newGid⟩) ∧
    (∀ g, (g ∈ a'.groups ∧ g.name = lmName) ↔ g = ⟨lmName, env.newGid, []⟩) ∧
    (∀ u ∈ a'.users, u.name ≠ lmName → u.uid ≠ env.newUid ∧ env.newGid ∉ gidsOf a' u) ∧
    (∀ g ∈ a'.groups, g.name ≠ lmName → g.gid ≠ env.newGid) ∧
    (∀ u, u.name ≠ lmName → (u ∈ a'.users ↔ u ∈ a.users)) ∧
    (∀ n m x, n ≠ lmName → m ≠ lmName →
      ((∃ g ∈ a'.groups, g.name = n ∧ g.gid = x ∧ m ∈ g.members) ↔ ∃ g ∈ a.groups, g.name = n ∧ g.gid = x ∧ m ∈ g.members)) := by
  obtain ⟨b, hb, h1, h2, h3, h4, rfl⟩ := createUser_ok h
  have hpb : PrimaryExists b := hb ▸ del_primary hp
  refine ⟨fun u => ?_, fun g => ?_, fun u hu hn => ?_, fun g hg hn => ?_, fun u hn => ?_, fun n m x hn hm => ?_⟩
  · constructor
    · rintro ⟨hu, hn⟩
      rcases List.mem_append.1 hu with hu | hu
      · exact absurd hn (h3 u hu)
      · exact List.mem_singleton.1 hu
    · rintro rfl
      exact ⟨List.mem_append.2 (.inr (List.mem_singleton.2 rfl)), rfl⟩
  · constructor
    · rintro ⟨hg, hn⟩
      rcases List.mem_append.1 hg with hg | hg
      · exact absurd hn (h1 g hg)
      · exact List.mem_singleton.1 hg
    · rintro rfl
      exact ⟨List.mem_append.2 (.inr (List.mem_singleton.2 rfl)), rfl⟩
  · rcases List.mem_append.1 hu with hu | hu
    · refine ⟨h4 u hu, fun hm => ?_⟩
      rcases List.mem_cons.1 hm with e | hm
      · obtain ⟨g, hg, e'⟩ := hpb u hu
        exact h2 g hg (e'.trans e.symm)
      · obtain ⟨g, hg, e⟩ := List.mem_map.1 hm
        obtain ⟨hg, hmem⟩ := List.mem_filter.1 hg
        rcases List.mem_append.1 hg with hg | hg
        · exact h2 g hg e
        · rw [List.mem_singleton.1 hg] at hmem
          simp at hmem
    · rw [List.mem_singleton.1 hu] at hn
      exact absurd rfl hn
  · rcases List.mem_append.1 hg with hg | hg
    · exact h2 g hg
    · rw [List.mem_singleton.1 hg] at hn
      exact absurd rfl hn
  · rw [← userdel_users (env := env) (a := a) hn, ← groupdel_users env (userdelCall env a), ← hb]
    constructor
    · intro hu
      rcases List.mem_append.1 hu with hu | hu
      · exact hu
      · rw [List.mem_singleton.1 hu] at hn
        exact absurd rfl hn
    · exact fun hu => List.mem_append.2 (.inl hu)
  · rw [← del_groups (env := env) (a := a) hn x m hm, ← hb]
    constructor
    · rintro ⟨g, hg, h5⟩
      rcases List.mem_append.1 hg with hg | hg
      · exact ⟨g, hg, h5⟩
      · rw [List.mem_singleton.1 hg] at h5
        exact absurd h5.1.symm hn
    · rintro ⟨g, hg, h5⟩
      exact ⟨g, List.mem_append.2 (.inl hg), h5⟩

/-- C122: if the user exists and cannot be deleted (a process of it is running), the script fails. -/
theorem C122_busy (env : CreateEnv) (a : Accounts) (hu : ∃ u ∈ a.users, u.name = lmName) (hd : env.userdelOk = false) : (createUser env a).1 = .err := by
  cases e : createUser env a with
  | mk r a' =>
    cases r with
    | err => rfl
    | ok x =>
      obtain ⟨b, hb, _, _, h3, _⟩ := createUser_ok e
      obtain ⟨u, hu, hn⟩ := hu
      refine absurd hn (h3 u ?_)
      rw [hb, groupdel_users]
      unfold userdelCall
      rw [if_neg (by rw [hd]; simp)]
      exact hu
    | panic =>
      unfold createUser at e
      split at e
      · cases e
      · simp only at e
        split at e
        · cases e
        · split at e <;> cases e

/-- **C122** (the two scripts, in the order of the documentation). After `create-user.sh` and then `install-server.sh` have come to their end, whatever
accounts and files there were before: of all users, root and letmeind can read the configuration with the keys and nobody else can. -/
theorem C122_readers_partial {cenv : CreateEnv} {a a' : Accounts} (hp : PrimaryExists a) (h : createUser cenv a = (.ok (), a')) {env : InstEnv} {fs : Fs}
    (hg : ∃ g ∈ a'.groups, g.name = lmName ∧ g.gid = env.gid) (hi : (installServer env fs).res = .ok ()) :
    ∀ u ∈ a'.users, CanRead (installServer env fs).fs serverConfFile u.uid (gidsOf a' u) ↔ u.uid = 0 ∨ u.name = lmName := by
  obtain ⟨h1, h2, h3, _⟩ := C122_account hp h
  obtain ⟨g, hg1, hg2, hg3⟩ := hg
  have eg := (h2 g).1 ⟨hg1, hg2⟩
  subst eg
  intro u hu
  rw [(C106_server_partial env fs hi).1, ← hg3]
  refine or_congr_right ?_
  by_cases hn : u.name = lmName
  · refine iff_of_true ?_ hn
    rw [(h1 u).1 ⟨hu, hn⟩]
    exact .head _
  · exact iff_of_false (h3 u hu hn).2 hn

/-! ## What is false -/

/-- An installed system. -/
def oldAccounts : Accounts :=
  { users := [⟨"root".toList, 0, 0⟩, ⟨lmName, 976, 976⟩, ⟨"alice".toList, 1000, 100⟩]
    groups := [⟨"root".toList, 0, []⟩, ⟨lmName, 976, []⟩, ⟨"users".toList, 100, ["alice".toList]⟩] }

/-- Everything works. -/
def plainCreate : CreateEnv :=
  { root := true, userdelOk := true, userGroups := false, groupdelOk := true, groupaddOk := true, newGid := 975, useraddOk := true, newUid := 976 }

theorem oldAccounts_primary : PrimaryExists oldAccounts := by unfold PrimaryExists oldAccounts; decide

example : createUser plainCreate oldAccounts = (.ok (),
    { users := [⟨"root".toList, 0, 0⟩, ⟨"alice".toList, 1000, 100⟩, ⟨lmName, 976, 975⟩]
      groups := [⟨"root".toList, 0, []⟩, ⟨"users".toList, 100, ["alice".toList]⟩, ⟨lmName, 975, []⟩] }) := by decide +kernel

example : ∀ u ∈ (createUser plainCreate oldAccounts).2.users,
    CanRead (installServer { goodInstall with gid := 975 } fun _ => none).fs serverConfFile u.uid (gidsOf (createUser plainCreate oldAccounts).2 u) ↔
      u.uid = 0 ∨ u.name = lmName :=
  C122_readers_partial oldAccounts_primary (by decide +kernel : createUser plainCreate oldAccounts = (.ok (), (createUser plainCreate oldAccounts).2))
    ⟨⟨lmName, 975, []⟩, by decide +kernel, rfl, rfl⟩ (by decide +kernel)

example : (createUser { plainCreate with userdelOk := false } oldAccounts).1 = .err := C122_busy _ _ (by decide +kernel) rfl

/-- **C122 is false** without a further run of the installation: `create-user.sh` on an installed system may choose another gid, and the configuration
keeps the old one. Then letmeind cannot read it, and the next group that is made may get the old gid: its members can read the keys. -/
theorem C122_negation : ∃ (cenv : CreateEnv) (a a' a'' : Accounts) (fs : Fs) (env : InstEnv) (lm other : Account),
    PrimaryExists a ∧ ⟨lmName, env.gid, []⟩ ∈ a.groups ∧ (installServer env fs).res = .ok () ∧ createUser cenv a = (.ok (), a') ∧
    lm ∈ a'.users ∧ lm.name = lmName ∧ ¬ CanRead (installServer env fs).fs serverConfFile lm.uid (gidsOf a' lm) ∧
    (∀ g ∈ a'.groups, g.gid ≠ env.gid) ∧ a'' = { a' with groups := a'.groups ++ [⟨"games".toList, env.gid, [other.name]⟩] } ∧
    other ∈ a''.users ∧ other.uid ≠ 0 ∧ other.name ≠ lmName ∧ CanRead (installServer env fs).fs serverConfFile other.uid (gidsOf a'' other) := by
  have hi : (installServer { goodInstall with gid := 976 } fun _ => none).res = .ok () := by decide +kernel
  refine ⟨plainCreate, oldAccounts, (createUser plainCreate oldAccounts).2, _, fun _ => none, { goodInstall with gid := 976 }, ⟨lmName, 976, 975⟩,
    ⟨"alice".toList, 1000, 100⟩, oldAccounts_primary, by decide +kernel, hi, by decide +kernel, by decide +kernel, rfl, ?_, by decide +kernel, rfl,
    by decide +kernel, by decide, by decide, ?_⟩
  · rw [(C106_server_partial _ _ hi).1]
    decide +kernel
  · rw [(C106_server_partial _ _ hi).1]
    decide +kernel

/-- **C122**: nor does a failed run leave things as they were. The old user is gone, and there is no new one. -/
theorem C122_negation_failed : ∃ (env : CreateEnv) (a : Accounts), (∃ u ∈ a.users, u.name = lmName) ∧ (createUser env a).1 = .err ∧
    ∀ u ∈ (createUser env a).2.users, u.name ≠ lmName :=
  ⟨{ plainCreate with useraddOk := false }, oldAccounts, by decide +kernel, by decide +kernel, by decide +kernel⟩

end Letmein.Props
