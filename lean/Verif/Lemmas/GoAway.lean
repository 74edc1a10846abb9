import Verif.Lemmas.Session

/-! # To strangers, letmeind sends nothing but Go-Away -/

namespace Letmein.Props

open Letmein Prog Spec

local macro "irr" : tactic =>
  `(tactic| first | trivial | (exfalso; rename_i hx; (simp at hx; done)) | (refine ⟨?_, ?_⟩ <;> intros <;>
    first | trivial | (exfalso; rename_i hx; (simp at hx; done))))

attribute [local simp] hist1 hist2 hist3 hist4 received sent fwRequests recvd sentMsg fwReq isFw challengeMsg goAwayMsg Message.new List.filterMap_cons

theorem only_goAway (mac : MacFn) (conf : Config) (peer : IpAddr) (tr : List Ev)
    (o : Option (R Unit)) (ht : (session mac conf peer).Trace tr o) (m : Message)
    (pre : List Ev) (e : Ev) (post : List Ev) (hs : tr = pre ++ e :: post) (he : sentMsg e = some m) :
    m.operation = .GoAway ∨ BasicAuth mac conf pre := by
  have ob : SessionObl mac conf peer
      (fun h e => sentMsg e = some m → m.operation = .GoAway ∨ BasicAuth mac conf h) (fun _ _ => True) := by
    constructor <;> intros <;> try first | irr | (refine reject_ok ?_ ?_ ?_ ?_ ?_ <;> intros <;> try irr)
    case ciSend hf _ _ => exact ⟨fun _ => .inr ⟨_, _, rfl, hf.knockOk⟩, trivial⟩
    all_goals first
      | exact .inr ⟨_, _, rfl, ‹ValidKnock mac conf _ _›⟩
      | exact .inr ⟨_, _, rfl, (‹FullAuth mac conf _ _ _ _ _ _ _›).knockOk⟩
      | (rename_i hx; exact .inl (by rw [← Option.some.inj hx]; rfl))
  exact ((session_ok ob).sound ht).1 pre e post hs he

end Letmein.Props
